#!/usr/bin/env python3
"""Writes lean/Verif/Validation/{GridPhr,GridGeoid,DtmGeoid,...}.lean from the rasters of /repo/tests/data: the model evaluated
on the data and the reference values of tests/geomodels/test_grid.py, tests/geofunctions/test_localization.py and
tests/geofunctions/test_dtm_intersection.py.  The result is committed; the build does not run this script.
The values are exact: an altitude or a longitude is the rational number of the double of the file."""
import math
import os
import re
import struct
from fractions import Fraction

from validation import HEADER, OUT, chars, module, rat
import validation

ROOT = os.environ.get("REPO", "/repo")
DATA = os.path.join(ROOT, "tests/data")


def read_tif(path):
    """Uncompressed TIFF file: tags and bands"""
    d = open(path, "rb").read()
    e = "<" if d[:2] == b"II" else ">"
    off = struct.unpack(e + "I", d[4:8])[0]
    n = struct.unpack(e + "H", d[off:off + 2])[0]
    fm = {1: "B", 2: "s", 3: "H", 4: "I", 8: "h", 11: "f", 12: "d"}
    sz = {1: 1, 2: 1, 3: 2, 4: 4, 8: 2, 11: 4, 12: 8}
    tags = {}
    for i in range(n):
        t, ty, c = struct.unpack(e + "HHI", d[off + 2 + 12 * i:off + 10 + 12 * i])
        size = sz[ty] * c
        raw = d[off + 10 + 12 * i:off + 14 + 12 * i]
        if size > 4:
            o = struct.unpack(e + "I", raw)[0]
            raw = d[o:o + size]
        raw = raw[:size]
        tags[t] = raw.decode("latin1").rstrip("\0") if ty == 2 else struct.unpack(e + str(c) + fm[ty], raw)
    w, h, bps = tags[256][0], tags[257][0], tags[258][0]
    spp, sf = tags.get(277, (1,))[0], tags.get(339, (1,))[0]
    assert tags.get(259, (1,))[0] == 1 and tags.get(284, (1,))[0] == 1
    ch = {(16, 2): "h", (64, 3): "d", (32, 3): "f"}[(bps, sf)]
    data = b"".join(d[o:o + c] for o, c in zip(tags[273], tags[279]))
    vals = struct.unpack(e + str(w * h * spp) + ch, data)
    bands = [[[vals[(y * w + x) * spp + b] for x in range(w)] for y in range(h)] for b in range(spp)]
    return tags, bands


def metadata(tags):
    return re.findall(r'<Item name="([^"]*)"[^>]*>([^<]*)</Item>', tags[42112])


def pack(values, width, scale):
    """The values as the digits of one number, first value in the lowest digit"""
    n = 0
    for k, v in enumerate(values):
        x = Fraction(v) * scale
        assert x.denominator == 1 and 0 <= x < 1 << width, (v, x)
        n |= int(x) << (width * k)
    return hex(n)


def q(x):
    """Exact value of a double"""
    return rat(Fraction(x)) if isinstance(x, float) else rat(x)


def affine(a, b, c, d, e, f):
    return f"⟨{q(a)}, {q(b)}, {q(c)}, {q(d)}, {q(e)}, {q(f)}⟩"


def transform_of(tags):
    """Affine transform of a PixelIsArea file"""
    if 34264 in tags:
        m = tags[34264]
        return (m[0], m[1], m[3], m[4], m[5], m[7])
    s, p = tags[33550], tags[33922]
    assert p[:3] == (0, 0, 0)
    return (s[0], 0.0, p[3], 0.0, -s[1], p[4])


def grid_def(name, path, window, comment):
    """A grid file: only the nodes of the window of rows and columns are kept"""
    tags, bands = read_tif(path)
    (r0, r1), (c0, c1) = window
    h, w = tags[257][0], tags[256][0]
    nr, nc = r1 - r0, c1 - c0
    out = ""
    for b, band in enumerate(bands):
        vals = [band[i][j] for i in range(r0, r1) for j in range(c0, c1)]
        out += f"/-- Band {b} of {comment}. -/\ndef {name}B{b} : ℕ := {pack(vals, 64, 1 << 52)}\n\n"
    meta = metadata(tags)
    whole = (nr, nc) == (h, w)
    out += (f"/-- {comment}" + ("" if whole else f", with the rows {r0} to {r1 - 1} and the columns {c0} to {c1 - 1} only (0 elsewhere)") +
            f". -/\ndef {name}File : GridFile ℚ where\n  driver := {chars('GTiff')}\n  tags := [" +
            ",\n    ".join(f"({chars(k)}, {chars(v)})" for k, v in meta) + "]\n  namespaces := []\n  bands := [" +
            ", ".join(f"node {name}B{b} {r0} {nr} {c0} {nc}" for b in range(len(bands))) + "]\n" +
            f"  height := {h}\n  width := {w}\n  transform := {affine(*transform_of(tags))}\n\n")
    out += (f"/-- The grid that `Grid.load` builds. -/\ndef {name} : MultiGrid ℚ := (loadedGrid {name}File).1\n\n")
    return out, tags, bands


def dtm_def(name, path, comment):
    tags, bands = read_tif(path)
    assert len(bands) == 1
    h, w = tags[257][0], tags[256][0]
    vals = [bands[0][i][j] for i in range(h) for j in range(w)]
    assert min(vals) >= 0
    out = f"/-- The altitudes of {comment}, row after row. -/\ndef {name}Alt : ℕ := {pack(vals, 16, 1)}\n\n"
    lo, hi = min(vals), max(vals)
    i, k = vals.index(lo), vals.index(hi)
    out += (f"/-- The DTM of {comment}. -/\ndef {name} : Dtm ℚ :=\n  packedDtm {name}Alt {h} {w} {affine(*transform_of(tags))}\n\n"
            f"/-- The range of the altitudes. -/\ntheorem {name}_bounds : {name}.altMin = {lo} ∧ {name}.altMax = {hi} := by\n"
            f"  have h : boundsOk {name}Alt {h} {w} {lo} {hi} {i // w} {i % w} {k // w} {k % w} = true := by decide +kernel\n"
            f"  simpa [{name}] using packed_bounds _ h\n\n"
            f"theorem {name}_planes : planeD {name} = planes {h} {w} {lo} {hi} := planeD_eq {name} {name}_bounds.1 {name}_bounds.2\n\n")
    return out, vals


def example(doc, prop, before=""):
    return f"/-- {doc} -/\nexample : {prop} := by\n  {before}decide +kernel\n\n"


def header(src, imports):
    return HEADER.format(src=src).replace("import Verif.Validation.Support", "\n".join("import Verif." + i for i in imports))


def write(name, src, imports, body):
    with open(os.path.join(OUT, name + ".lean"), "w", encoding="utf-8") as f:
        f.write(header(src, imports) + body + "\nend Shareloc.Validation\n")


def direct(grid, row, col, alt, ref, tol, doc):
    return example(doc, f"rowNear {rat(tol)} {rat(ref[0])} {rat(ref[1])} {rat(ref[2])}\n    "
                   f"(gridDirectLocH {grid} [some {rat(row)}] [some {rat(col)}] [some {rat(alt)}]) = true")


def main():
    # loc_direct_grid_PHR_2013072139303958CP.tif
    path = os.path.join(DATA, "ellipsoide/loc_direct_grid_PHR_2013072139303958CP.tif")
    body, tags, bands = grid_def("phrGrid", path, ((0, 5), (0, 9)), "loc_direct_grid_PHR_2013072139303958CP.tif")
    body += example("The EPSG code read by `Grid.load`.", "(loadedGrid phrGridFile).2 = some 4326")
    body += example("The altitudes, highest first.", "(List.range 3).map phrGrid.alts = [1000, 485, -30]")
    body += direct("phrGrid", "0.5", "0.5", "1000", ("2.183908972985368", "48.94317692547565", "1000"), "1e-9", "`test_grid_geotiff`.")
    body += direct("phrGrid", "50", "100", "200", ("2.1828713504608683", "48.942429997483146", "200"), "1e-9", "`test_grid_geotiff`.")
    body += example("`test_sensor_loc_nan`.", "gridDirectLocH phrGrid [none] [none] [some 0] = .ok [⟨none, none, none⟩]")
    # extrapolation: the reference is a bilinear interpolation on the layer at 1000 m written here
    (a, _, c, _, e, f) = transform_of(tags)

    def interpn(band, row, col):
        r, k = (Fraction(row) - Fraction(f)) / Fraction(e), (Fraction(col) - Fraction(c)) / Fraction(a)
        i = min(max(math.floor(r), 0), len(band) - 2)
        j = min(max(math.floor(k), 0), len(band[0]) - 2)
        v = lambda x, y: Fraction(band[x][y])
        u, t = r - i, k - j
        return (1 - u) * (1 - t) * v(i, j) + (1 - u) * t * v(i, j + 1) + u * (1 - t) * v(i + 1, j) + u * t * v(i + 1, j + 1)

    for (row, col) in [("0.5", "0.5"), ("-0.5", "-0.5"), ("490", "500")]:
        ref = (interpn(bands[4], row, col), interpn(bands[5], row, col), 1000)
        body += direct("phrGrid", row, col, "1000", ref, "0",
                       "`test_grid_extrapolation`: the bilinear interpolation on the layer at 1000 m, extrapolated.")
    write("GridPhr", "tests/data/ellipsoide and tests/geomodels/test_grid.py", ["Validation.RasterSupport"], body)

    # geoide/P1BP--2017030824934340CP
    scene = "P1BP--2017030824934340CP"
    folder = os.path.join(DATA, "geoide", scene)
    body, tags, bands = grid_def("geoGrid", os.path.join(folder, f"GRID_{scene}.tif"), ((0, 4), (0, 16)), f"GRID_{scene}.tif")
    body += example("`test_sensor_loc_dir_h`: the EPSG code.", "(loadedGrid geoGridFile).2 = some 4269")
    body += example("The altitudes in the comment of `test_gld_dtm`.",
                    "(List.range 5).map geoGrid.alts = [4900, 7335 / 2, 2435, 2405 / 2, -30]")
    body += direct("geoGrid", "100.5", "50.5", "100", ("57.2170054518422", "21.9590529453258", "100"), "1e-12", "`test_sensor_loc_dir_h`.")
    body += example("`test_loc_dir_interp_visee_unitaire_gld`.",
                    "nearPair (1 / 10 ^ 12) (572169100597702 / 10 ^ 13) (2196277930762832 / 10 ^ 14)\n    "
                    "(gridPlani geoGrid [(201 / 2, 101 / 2)] ((List.range 5).map geoGrid.alts) 0 1) = true")
    dbody, vals = dtm_def("geoDtm", os.path.join(folder, f"MNT_{scene}.tif"), f"MNT_{scene}.tif")
    body += dbody
    body += example("`test_interp_dtm` (row 20, column 10).", "geoDtm.interpolate 20 10 = 196")
    body += example("`test_interp_dtm` (row 25.5, column 20.5).", "geoDtm.interpolate (51 / 2) (41 / 2) = 379 / 2")
    for (r, c) in [("20", "10"), ("25.5", "20.5")]:
        body += example("`test_interp_dtm`: the position of an index, at a relative tolerance of 1e-12.",
                        f"nearXY (1 / 10 ^ 10) (572083333333 / 10 ^ 10 + {rat(c)} * (833333333333 / 10 ^ 14)) "
                        f"(222166666667 / 10 ^ 10 - {rat(r)} * (833333333333 / 10 ^ 14))\n    (indexToTerPy geoDtm.transform ⟨{rat(r)}, {rat(c)}, 0⟩) = true")
        body += example("`test_interp_dtm`: back to the index.",
                        f"terToIndexPy geoDtm.transform (indexToTerPy geoDtm.transform ⟨{rat(r)}, {rat(c)}, 0⟩) = ⟨{rat(r)}, {rat(c)}, 0⟩")
    body += ("/-- The line of sight of the tests. -/\ndef geoLos : List (V3 ℚ) :=\n"
             "  (List.range 5).map fun k => ⟨(gridPlani geoGrid [(201 / 2, 101 / 2)] ((List.range 5).map geoGrid.alts) 0 k).1,\n"
             "    (gridPlani geoGrid [(201 / 2, 101 / 2)] ((List.range 5).map geoGrid.alts) 0 k).2, geoGrid.alts k⟩\n\n")
    for impl in ["py", "cpp"]:
        body += example(f"`test_loc_dir_instersect_cube_dtm` ({impl}).",
                        f"cubeNear (1 / 10 ^ 12) (5721700176041541 / 10 ^ 14) (21959197148974 / 10 ^ 12) 238 geoDtm (intersectDtmCube .{impl} geoDtm geoLos) = true",
                        "rw [intersectDtmCubeP_eq, geoDtm_planes]\n  ")
        body += example(f"`test_loc_intersection` ({impl}), the altitude at 1e-10.",
                        f"dtmNear (1 / 10 ^ 12) (1 / 10 ^ 10) (5721700367698209 / 10 ^ 14) (2195912227930429 / 10 ^ 14) (166351227229112 / 10 ^ 12)\n"
                        f"    (losDtm .{impl} geoDtm 20 geoLos) = true",
                        "rw [losDtmP_eq, geoDtm_planes]\n  ")
    pred = {"colMin": "4.15161251e-02 1.95057636e-01 1.10977819 -8.35016563e-04 -3.50772271e-02 -9.46432481e-03",
            "rowMin": "0.05440845 1.26513831 -0.36737151 -0.00229532 -0.07459378 -0.02558954",
            "colMax": "1.76451389e-02 2.05533045e-01 1.11758291 -9.50086076e-04 -3.59923603e-02 -1.03291594e-02",
            "rowMax": "0.07565692 1.27499912 -0.36677813 -0.00252395 -0.07539624 -0.0270914"}
    body += ("/-- The predictor of `test_pred_loc_inv` (its reference values). -/\ndef geoPred : Predictor ℚ where\n" +
             "".join(f"  {k} := ![{', '.join(rat(x) for x in v.split())}]\n" for k, v in pred.items()) +
             f"  lonOff := {rat('57.37295223744326')}\n  lonScale := {rat('0.15660032225072484')}\n"
             f"  latOff := {rat('22.066877016445275')}\n  latScale := {rat('0.14641205050748773')}\n"
             "  rowOff := 24913\n  rowScale := 49825 / 2\n  colOff := 39951 / 2\n  colScale := 19975\n\n")
    body += example("`test_sensor_loc_inv`, with the reference predictor and the cosine of the latitude as a number.",
                    "rowNear2 (1 / 100) (101 / 2) 10\n    (gridInverseLoc geoGrid geoPred (17453292519943295 / 10 ^ 12) (6378000 ^ 2 / 10 ^ 12)\n"
                    f"      (fun _ => {rat('%.20f' % math.cos(math.radians(21.9587514585812)))}) [some {rat('57.2167252772905')}] [some {rat('21.9587514585812')}] [some 10] 15) = true")
    write("DtmGeoide", "tests/data/geoide, tests/geofunctions/test_localization.py and test_dtm_intersection.py",
          ["Validation.RasterSupport"], body)


if __name__ == "__main__":
    main()
