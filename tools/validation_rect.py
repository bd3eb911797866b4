#!/usr/bin/env python3
"""Writes lean/Verif/Validation/Rectification*.lean from the files of /repo/tests/data/rectification: the model evaluated on the
data and the reference values of tests/geofunctions/test_rectification.py."""
import os
from fractions import Fraction

from validation import geom_params, params_term, rat
from validation_raster import DATA, example, q, read_tif, write

RECT = os.path.join(DATA, "rectification")


def models():
    out = ""
    for side in ["left", "right"]:
        p = geom_params(os.path.join(RECT, f"{side}_image.geom"))
        out += (f"/-- The parameters of {side}_image.geom. -/\ndef {side}Params : RpcParams ℚ :=\n  {params_term(p)}\n\n"
                f"/-- The model of {side}_image.geom. -/\ndef {side}Geo : Geo ℚ Unit := geoR (rpcOfParams {side}Params)\n\n")
    out += ("/-- left_image.tif: 500 × 500 pixels of size 1 at (5000, 5000). -/\ndef leftIm : LeftImage ℚ :=\n"
            "  ⟨500, 500, 1, 1, ⟨1, 0, 5000, 0, 1, 5000⟩⟩\n\n"
            "/-- The colocations at altitude 0. -/\ndef pair : Stereo ℚ := stereoOf convR leftGeo rightGeo (.value [some 0])\n\n")
    return out


def footprint(test, margin, refs, size):
    pts = ", ".join(f"({rat(a)}, {rat(b)})" for a, b in refs)
    return example(f"`{test}`: sizes and footprint.",
                   f"preparedNear (1 / 10 ^ 5) {size} {size} 612 612\n    [{pts}]\n    (prepareOf rtrig pair leftIm 30 50 {margin}) = true")


def main():
    body = models()
    body += footprint("test_prepare_rectification_footprint", 0,
                      [("5034.15635485", "5625.78139208"), ("5654.75411307", "5459.06023724"),
                       ("5488.03295823", "4838.46247902"), ("4867.43520001", "5005.18363386")], 22)
    body += footprint("test_prepare_rectification_footprint_with_margins", 5,
                      [("4928.20978948", "5809.56203656"), ("5838.53475755", "5565.0068026"),
                       ("5593.97952359", "4654.68183453"), ("4683.65455552", "4899.23706849")], 32)
    body += example("`test_prepare_rectification`: the ground size of a step.",
                    "gsdNear (1 / 10 ^ 7) (1517216332 / 10 ^ 8) (1514967040 / 10 ^ 8)\n"
                    "    (startOf (prepareOf rtrig pair leftIm 30 50 0) fun p =>\n"
                    "      epipolarGsd rtrig pair leftGeo.directH (convR 4326 4978) p 1 30 50) = true")
    n = 3
    for side in ["left", "right"]:
        _, bands = read_tif(os.path.join(RECT, f"shareloc_gt_{side}_grid.tif"))
        rows = [[(Fraction(bands[1][i][j]) + 30 * i, Fraction(bands[0][i][j]) + 30 * j) for i in range(n)] for j in range(n)]
        body += (f"/-- The first {n} rows and columns of shareloc_gt_{side}_grid.tif, as positions, column by column. -/\n"
                 f"def {side}Ref : List (List (ℚ × ℚ)) :=\n  [" +
                 ",\n   ".join("[" + ", ".join(f"({q(a)}, {q(b)})" for a, b in r) + "]" for r in rows) + "]\n\n")
    body += example("`test_compute_stereorectification_epipolar_grids_geomodel_rpc`: the first nodes of the two grids, at 1e-8.",
                    f"gridsNear (1 / 10 ^ 8) leftRef rightRef (gridsOf rtrig pair leftIm 30 50 0 {n} {n}) = true")
    # with margins: the first node, as a position
    refs = []
    for side in ["left", "right"]:
        _, bands = read_tif(os.path.join(RECT, f"shareloc_gt_{side}_grid_with_margins.tif"))
        refs.append("[" + ", ".join("[" + ", ".join(f"({q(bands[1][i][j])}, {q(bands[0][i][j])})" for i in range(2)) + "]" for j in range(2)) + "]")
    body += example("`test_compute_stereorectification_epipolar_grids_geomodel_rpc_with_margins`: the first nodes.",
                    f"gridsNear (1 / 10 ^ 8)\n    {refs[0]}\n    {refs[1]}\n    (gridsOf rtrig pair leftIm 30 50 5 2 2) = true")
    for (s, e, ref) in [((1, 0), (2, 0), "rpi / 2"), ((2, 0), (1, 0), "-(rpi / 2)"), ((2, 0), (1, 1), "ratan (-1)"),
                        ((2, 1), (1, 0), "rpi + ratan 1")]:
        body += example("`test_epipolar_angle`.", f"epipolarAngle rtrig ⟨some {e[0]}, some {e[1]}, some 0⟩ ⟨some {s[0]}, some {s[1]}, some 0⟩ = some ({ref})")
    write("RectRpc", "tests/data/rectification and tests/geofunctions/test_rectification.py", ["Validation.RectSupport"], body)


if __name__ == "__main__":
    main()
