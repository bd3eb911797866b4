#!/usr/bin/env python3
"""Writes lean/Verif/Validation/Triangulation.lean from the files of /repo/tests/data: the model evaluated on the data and the
reference values of tests/geofunctions/test_triangulation.py and tests/geomodels/test_los.py."""
import os
import struct
from fractions import Fraction

from validation import dimap2_params, geom_params, params_term, rat
from validation_raster import DATA, affine, example, q, read_tif, transform_of, write


def model(name, p, comment):
    return (f"/-- The parameters of {comment}. -/\ndef {name}Params : RpcParams ℚ :=\n  {params_term(p)}\n\n"
            f"/-- The model of {comment}. -/\ndef {name}Model : LosModel ℚ := losR (rpcOfParams {name}Params)\n\n")


def rect_grid(name, path, disp, cells):
    tags, bands = read_tif(path)
    h, w = tags[257][0], tags[256][0]
    items = ",\n   ".join(f"(({i}, {j}), {q(bands[0][i][j])}, {q(bands[1][i][j])})" for (i, j) in cells)
    return (f"/-- The nodes of {os.path.relpath(path, DATA)} around the matches. -/\ndef {name}Grid : RectGrid ℚ :=\n"
            f"  readRectGrid ⟨{h}, {w}, {affine(*transform_of(tags))}, fewCells [\n   {items}]⟩ {str(disp).lower()}\n\n")


def around(col, row, step=30):
    i, j = int(Fraction(row) // step), int(Fraction(col) // step)
    return [(i + a, j + b) for a in (0, 1) for b in (0, 1)]


def tri(doc, left, right, match, ref):
    m = [q(x) if isinstance(x, float) else rat(x) for x in match]
    return example(doc, f"ecefNear (1 / 1000) {rat(ref[0])} {rat(ref[1])} {rat(ref[2])}\n"
                   f"    (epipolarTriangulation rsqrt ecefR id {left}Model {right}Model (interpR {left}Grid) (interpR {right}Grid)\n"
                   f"      (.sift [((some {m[0]}, some {m[1]}), (some {m[2]}, some {m[3]}))]) none none none false false) = true")


def main():
    d = open(os.path.join(DATA, "triangulation/matches-crop.npy"), "rb").read()
    n = struct.unpack("<H", d[8:10])[0]
    match = struct.unpack("<4d", d[10 + n:10 + n + 32])
    body = ""
    for side, f, cells in [("siftL", "PHR1B_P_201709281038045_SEN_PRG_FC_178608-001", around(match[0], match[1])),
                           ("siftR", "PHR1B_P_201709281038393_SEN_PRG_FC_178609-001", around(match[2], match[3]))]:
        body += model(side, geom_params(os.path.join(DATA, "rpc", f + ".geom")), f + ".geom")
        g = "left" if side == "siftL" else "right"
        body += rect_grid(side, os.path.join(DATA, f"rectification_grids/{g}_epipolar_grid.tif"), True, cells)
    body += tri("`test_epi_triangulation_sift_rpc`: the first match of matches-crop.npy.", "siftL", "siftR", match,
                ("4584341.37359843123704195022583", "572313.675204274943098425865173", "4382784.51356450468301773071289"))
    match = (300, 400, 302, 420)
    for side, f, cells in [("gizehL", "img1", around(300, 400)), ("gizehR", "img2", around(302, 420))]:
        body += model(side, geom_params(os.path.join(DATA, "rpc/phr_gizeh", f + ".geom")), f"phr_gizeh/{f}.geom")
        g = "left" if side == "gizehL" else "right"
        body += rect_grid(side, os.path.join(DATA, f"rectification_grids/phr_gizeh/{g}_epi_grid.tif"), False, cells)
    body += tri("`test_epi_triangulation_sift_rpc_loc_grid`: the first match.", "gizehL", "gizehR", match,
                ("4733007.44057619", "2859047.05062282", "3168330.19887048"))
    f = "RPC_P1BP--2017092838284574CP.XML"
    body += model("losP", dimap2_params(os.path.join(DATA, "rpc", f)), f)
    m = struct.unpack("<4d", d[10 + n:10 + n + 32])
    body += example("`test_los_parameters`: the first match, the positions at 1e-6 and the direction at 1e-9.",
                    "losNear (1 / 10 ^ 6) (1 / 10 ^ 9)\n"
                    f"    ⟨{rat('4581872.886817954')}, {rat('566896.0588669669')}, {rat('4387122.994634065')}⟩\n"
                    f"    ⟨{rat('4581535.247284677')}, {rat('566895.0732696055')}, {rat('4386692.2193931695')}⟩\n"
                    f"    ⟨{rat('0.6168861918045335')}, {rat('0.0018007411543079202')}, {rat('0.7870503056934771')}⟩\n"
                    f"    (losCreation rsqrt ecefR losPModel [(some {q(m[0])}, some {q(m[1])})] (some (310, 850)) true) = true")
    body += example("`test_triangulation_residues`.",
                    "distancePointLos rsqrt ⟨[⟨some 100, some 10, some 200⟩, ⟨some 100, some 10, some 200⟩], [],\n"
                    "      [⟨some 0, some 1, some 0⟩, ⟨some 0, some 1, some 0⟩]⟩ [⟨some 100, some 110, some 210⟩, ⟨some 100, some 110, some 210⟩] =\n"
                    "    [some 10, some 10]")
    path = os.path.join(DATA, "rectification_grids/left_epipolar_grid_ventoux.tif")
    tags, bands = read_tif(path)
    h, w = tags[257][0], tags[256][0]
    cells = [(i, j) for i in (0, 1, h - 2, h - 1) for j in (0, 1, w - 2, w - 1)]
    body += rect_grid("ventoux", path, True, cells)
    body += example("`test_rectification_grid_extrapolation`: before the first node.",
                    "near (1 / 10 ^ 10) (506572347005208303016 / 10 ^ 17) (interpR ventouxGrid (some 30, some (-10))).2 = true")
    body += example("`test_rectification_grid_extrapolation`: after the last node.",
                    "near (1 / 10 ^ 10) (488384894205729142413474619389 / 10 ^ 26) (interpR ventouxGrid (some 30, some 691)).2 = true")
    write("Triangulation", "tests/data, tests/geofunctions/test_triangulation.py, test_rectification.py and tests/geomodels/test_los.py",
          ["Validation.RectSupport", "Model.Triangulation"], body)


if __name__ == "__main__":
    main()
