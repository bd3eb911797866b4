#!/usr/bin/env python3
"""Writes lean/Verif/Validation/Rpc*.lean from the files of /repo/tests/data/rpc: the model evaluated on the data and the
reference values of tests/geomodels/test_rpc.py.  The result is committed; the build does not run this script."""
import os
import re
from fractions import Fraction
from xml.dom import minidom

ROOT = os.environ.get("REPO", "/repo")
DATA = os.path.join(ROOT, "tests/data/rpc")
OUT = os.path.join(os.path.dirname(os.path.dirname(os.path.abspath(__file__))), "lean/Verif/Validation")


def rat(s):
    """Exact value of a decimal number as a Lean term"""
    f = Fraction(str(s))
    num = f"({f.numerator})" if f.numerator < 0 else str(f.numerator)
    return num if f.denominator == 1 else f"({f.numerator}/{f.denominator})"


def lst(values):
    return "[" + ", ".join(rat(v) for v in values) + "]"


def lstr(s):
    return '"' + s.replace("\\", "\\\\").replace('"', '\\"').replace("\n", "\\n").replace("\t", "\\t") + '"'


def chars(s):
    """The characters as a list: the kernel is slow on the decoding of string literals"""
    esc = {"'": "\\'", "\\": "\\\\", "\n": "\\n", "\t": "\\t", "\r": "\\r"}
    return "[" + ",".join("'" + esc.get(c, c) + "'" for c in s) + "]"


def split_tag(name):
    m = re.match(r"^(.*_)(\d+)$", name)
    return f"⟨{lstr(m.group(1))}, some {int(m.group(2))}⟩" if m else f"⟨{lstr(name)}, none⟩"


def xml(node, keep=None, depth=0):
    """Lean term of a minidom node; with keep, only the subtrees that contain one of these names"""
    if node.nodeType == node.TEXT_NODE:
        return f"(.text {chars(node.data)})"
    if node.nodeType != node.ELEMENT_NODE:
        return None
    inside = keep is None or node.tagName in keep
    attrs = [v for (_, v) in node.attributes.items()]
    children = []
    for c in node.childNodes:
        if not inside and c.nodeType == c.ELEMENT_NODE and c.tagName not in keep:
            if not any(c.getElementsByTagName(k) for k in keep):
                continue
        if not inside and c.nodeType == c.TEXT_NODE:
            continue
        t = xml(c, None if inside else keep, depth + 1)
        if t is not None:
            children.append(t)
    sep = ",\n" + " " * (depth + 1)
    return f"(.elem {split_tag(node.tagName)} [{', '.join(chars(a) for a in attrs)}] [{sep.join(children)}])"


def params_term(p):
    opt = lambda v: "none" if v is None else f"some {lst(v)}"
    return ("{ driver := " + chars(p["driver"]) + ",\n    " + ",\n    ".join(
        f"{k} := {rat(p[k])}" for k in ["offsetAlt", "scaleAlt", "offsetY", "scaleY", "offsetRow", "scaleRow", "offsetX",
                                        "scaleX", "offsetCol", "scaleCol"]) + ",\n    " + ",\n    ".join(
        f"{k} := {lst(p[k])}" for k in ["denRow", "numRow", "denCol", "numCol"]) + ",\n    " + ",\n    ".join(
        f"{k} := {opt(p[k])}" for k in ["numX", "denX", "numY", "denY"]) + " }")


H = Fraction(1, 2)


def geom_params(path):
    d = {}
    for line in open(path, encoding="utf-8"):
        k, v = line.split(":", 1)[0], line.split(":")[1].strip()
        d[k] = v
    g = lambda k: Fraction(d[k])
    c = lambda k: [Fraction(d[f"{k}_{i:02d}"]) for i in range(20)]
    return dict(driver="ossim_kwl", offsetAlt=g("height_off"), scaleAlt=g("height_scale"), offsetY=g("lat_off"),
                scaleY=g("lat_scale"), offsetRow=g("line_off") + H, scaleRow=g("line_scale"), offsetX=g("long_off"),
                scaleX=g("long_scale"), offsetCol=g("samp_off") + H, scaleCol=g("samp_scale"),
                denRow=c("line_den_coeff"), numRow=c("line_num_coeff"), denCol=c("samp_den_coeff"),
                numCol=c("samp_num_coeff"), numX=None, denX=None, numY=None, denY=None)


def dimap2_params(path):
    doc = minidom.parse(path)
    fmt = doc.getElementsByTagName("METADATA_FORMAT")[0]
    version = fmt.attributes.items()[0][1]
    rfm = doc.getElementsByTagName("Global_RFM")[0]
    val = rfm.getElementsByTagName("RFM_Validity")[0]
    g = lambda k: Fraction(val.getElementsByTagName(k)[0].firstChild.data.strip())
    c = lambda n, k: [Fraction(rfm.getElementsByTagName(n)[0].getElementsByTagName(f"{k}_{i}")[0].firstChild.data.strip())
                      for i in range(1, 21)]
    return dict(driver="dimap_v" + version, offsetAlt=g("HEIGHT_OFF"), scaleAlt=g("HEIGHT_SCALE"), offsetY=g("LAT_OFF"),
                scaleY=g("LAT_SCALE"), offsetRow=g("LINE_OFF") - 1 + H, scaleRow=g("LINE_SCALE"), offsetX=g("LONG_OFF"),
                scaleX=g("LONG_SCALE"), offsetCol=g("SAMP_OFF") - 1 + H, scaleCol=g("SAMP_SCALE"),
                denRow=c("Inverse_Model", "LINE_DEN_COEFF"), numRow=c("Inverse_Model", "LINE_NUM_COEFF"),
                denCol=c("Inverse_Model", "SAMP_DEN_COEFF"), numCol=c("Inverse_Model", "SAMP_NUM_COEFF"),
                numX=c("Direct_Model", "SAMP_NUM_COEFF"), denX=c("Direct_Model", "SAMP_DEN_COEFF"),
                numY=c("Direct_Model", "LINE_NUM_COEFF"), denY=c("Direct_Model", "LINE_DEN_COEFF"))


def dimap1_params(path):
    doc = minidom.parse(path)
    version = doc.getElementsByTagName("METADATA_PROFILE")[0].attributes.items()[0][1]
    rfm = doc.getElementsByTagName("Global_RFM")[0]
    val = doc.getElementsByTagName("RFM_Validity")[0]
    f = lambda k: [Fraction(x) for x in rfm.getElementsByTagName(k)[0].firstChild.data.split()]
    g = lambda k, ab: Fraction(val.getElementsByTagName(k)[0].getElementsByTagName(ab)[0].firstChild.data.strip())
    return dict(driver="dimap_v" + version, offsetAlt=g("Alt", "B"), scaleAlt=g("Alt", "A"), offsetY=g("Lat", "B"),
                scaleY=g("Lat", "A"), offsetRow=g("Row", "B") - 1 + H, scaleRow=g("Row", "A"), offsetX=g("Lon", "B"),
                scaleX=g("Lon", "A"), offsetCol=g("Col", "B") - 1 + H, scaleCol=g("Col", "A"),
                denRow=f("F_ROW")[20:], numRow=f("F_ROW")[:20], denCol=f("F_COL")[20:], numCol=f("F_COL")[:20],
                numX=f("F_LON")[:20], denX=f("F_LON")[20:], numY=f("F_LAT")[:20], denY=f("F_LAT")[20:])


HEADER = '''import Verif.Validation.Support

/-!
Written by tools/validation.py from {src} of /repo.  The model evaluated on the data of the tests: a check of the model
against the reference values of the repository, not a proof of a property.
-/

set_option maxRecDepth 100000

namespace Shareloc.Validation

'''


def text_def(name, path):
    lines = open(path, encoding="utf-8").read().split("\n")
    lines = [x for x in lines if not x.startswith("adjustment_")]
    if lines and lines[-1] == "":
        lines = lines[:-1]
    return (f"/-- The lines of {os.path.basename(path)}, without the adjustment part. -/\ndef {name} : Text :=\n  [" +
            ",\n   ".join(chars(x) for x in lines) + "]\n\n")


def module(name, src, body):
    with open(os.path.join(OUT, name + ".lean"), "w", encoding="utf-8") as f:
        f.write(HEADER.format(src=src) + body + "\nend Shareloc.Validation\n")


def reading(name, env, path, content, p):
    return (f"/-- The parameters of {path}, read by a separate script. -/\ndef {name}Params : RpcParams ℚ :=\n  {params_term(p)}\n\n"
            f"/-- `rpc_reader` of the model reads these parameters in the file (test_rpc_drivers: the driver). -/\n"
            f"theorem {name}_read :\n    rpcReader ({env}) (oneFile {chars(path)} {content}) {chars(path)} true = .ok {name}Params := by\n"
            f"  decide +kernel\n\n")


def inverse_check(name, test, lon, lat, alt, row, col, tol):
    return (f"/-- `{test}`: the reference image position of a ground point. -/\n"
            f"example : invNear {rat(tol)} {rat(row)} {rat(col)} (inverseLocPy (rpcOfParams {name}Params) [some {rat(lon)}] [some {rat(lat)}] [some {rat(alt)}]) = true := by\n"
            f"  decide +kernel\n\n"
            f"/-- `{test}` with the C++ model. -/\n"
            f"example : invNear {rat(tol)} {rat(row)} {rat(col)} (optimInverse {name}Params {rat(lon)} {rat(lat)} {rat(alt)}) = true := by\n"
            f"  decide +kernel\n\n")


def main():
    ref = {
        "178609": ("7.048662660737769592", "43.72774839443545858", "0", "200.5", "100.5"),
        "178608": ("7.11526088296757386331137240632", "43.684281179313565246502548689", "850", "10236.4310", "10121.5657"),
    }
    body = ""
    for key, f in [("178609", "PHR1B_P_201709281038393_SEN_PRG_FC_178609-001"),
                   ("178608", "PHR1B_P_201709281038045_SEN_PRG_FC_178608-001")]:
        path = os.path.join(DATA, f + ".geom")
        n = "geom" + key
        body += text_def(n, path)
        body += f"/-- `test_identify_ossim_kwl`. -/\nexample : identifyOssim (some {n}) = some \"ossimPleiadesModel\".toList := by decide +kernel\n\n"
        body += reading(n, "textEnv none", f"rpc/{f}.geom", n, geom_params(path))
        body += inverse_check(n, "test_rpc_ossim_kwl", *ref[key], "0.01")
    for key, f in [("178609", "RPC_PHR1B_P_201709281038393_SEN_PRG_FC_178609-001.XML")]:
        path = os.path.join(DATA, f)
        n = "dimap" + key
        b = f"/-- The document of {f}. -/\ndef {n} : Xml :=\n  {xml(minidom.parse(path).documentElement)}\n\n"
        b = b.replace(f"def {n} : Xml :=\n  ", f"def {n} : Xml :=\n  .elem ⟨\"#document\", none⟩ [] [").replace("\n\n", "]\n\n", 1)
        b += f"/-- The version (`test_rpc_drivers`). -/\nexample : identifyDimap (some {n}) = some {chars('2.15')} := by decide +kernel\n\n"
        b += reading(n, f"textEnv (some {n})", f"rpc/{f}", "[]", dimap2_params(path))
        b += inverse_check(n, "test_rpc_dimap_v2", *ref[key], "0.01")
    f = "PHRDIMAP_P1BP--2018122638935449CP.XML"
    path = os.path.join(DATA, f)
    keep = ["Metadata_Identification", "Metadata_Id", "METADATA_PROFILE", "METADATA_FORMAT", "Global_RFM", "RFM_Validity"]
    doc = minidom.parse(path).documentElement
    c = (f"/-- The document of {f}: the parts read by `rpc_reader`. -/\ndef dimap1 : Xml :=\n"
         f"  .elem ⟨\"#document\", none⟩ [] [{xml(doc, keep)}]\n\n")
    p1 = dimap1_params(path)
    c += reading("dimap1", "textEnv (some dimap1)", f"rpc/{f}", "[]", p1)
    ex = lambda d, t: f"/-- {d} -/\nexample : {t} := by\n  decide +kernel\n\n"
    c += ex("`test_rpc_drivers`.", f"dimap1Params.driver = {chars('dimap_v1.4')}")
    c += ex("`test_rpc_minmax`.", "rpcAltMinMax (rpcOfParams dimap1Params) = (1065 / 2, 1235 / 2)")
    c += ex("`test_rpc_phrdimap`: the direct model, then the inverse one.",
            "thenInverse (2 / 100) 200 600 (rpcOfParams dimap1Params)\n    (directLocH (rpcOfParams dimap1Params) [some 200] [some 600] [some 125] false true) = true")
    c += ex("`test_rpc_phrdimap` with the iterative direct location.",
            "thenInverse (1 / 10 ^ 9) 200 600 (rpcOfParams dimap1Params)\n    (directR (rpcOfParams dimap1Params) [some 200] [some 600] [some 125]) = true")
    c += ex("`test_rpc_direct_inverse_iterative`: the direct model and the iteration.",
            "bothNear (10 / 111111000) (directLocH (rpcOfParams dimap1Params) [some 200] [some 600] [some 125] false true)\n"
            "    (directR (rpcOfParams dimap1Params) [some 200] [some 600] [some 125]) = true")
    c += ex("`test_rpc_direct_iterative_all_nan`.",
            "directLocH (rpcOfParams dimap1Params) [none, none] [none, none] [some 125] false false = .ok [⟨none, none, none⟩, ⟨none, none, none⟩]")
    c += ex("`test_geomodel_check_lonlat`.",
            "checkLonLat [⟨some 10, some 20, some 100⟩, ⟨none, some 20, some 100⟩, ⟨some 10, some (-5), none⟩, ⟨none, none, none⟩,\n"
            "      ⟨some 185, some 20, some 100⟩, ⟨some 100, some (-95), some 100⟩, ⟨some (-185), some 20, some 100⟩, ⟨some 100, some 95, some 100⟩] =\n"
            "    (⟨some 10, some 20, some 100⟩ : ORow ℚ) :: List.replicate 7 nanRow")
    c += ("/-- The lines of fake_rpc.txt. -/\ndef fakeRpc : Text :=\n  [" +
          ",\n   ".join(chars(x) for x in open(os.path.join(DATA, "fake_rpc.txt"), encoding="utf-8").read().split("\n")[:-1]) + "]\n\n")
    c += ex("`test_rpc_drivers`: ValueError.", f"isErr (rpcReader (textEnv none) (oneFile {chars('rpc/fake_rpc.txt')} fakeRpc) {chars('rpc/fake_rpc.txt')} true) = true")
    module("RpcDimap1", "the DIMAP v1 file of tests/data/rpc and tests/geomodels/test_rpc.py", c)
    pth = os.path.join(OUT, "RpcDimap1.lean")
    t = open(pth, encoding="utf-8").read().replace("import Verif.Validation.Support", "import Verif.Validation.RectSupport")
    open(pth, "w", encoding="utf-8").write(t)
    module("RpcDimap2", "the DIMAP v2 file of tests/data/rpc and tests/geomodels/test_rpc.py", b)
    module("RpcGeom", "the .geom files of tests/data/rpc and tests/geomodels/test_rpc.py", body)


if __name__ == "__main__":
    main()
