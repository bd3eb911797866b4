import Verif.Props.RpcReaders
import Verif.Props.RpcLoc

/-!
# C50: what the parameters of a file mean for the location, from the tags to the coordinates
-/

set_option linter.unusedSectionVars false

namespace Shareloc
variable {K : Type} [Field K] [LinearOrder K] [IsStrictOrderedRing K]

/-- Specification: quotient of two RPC00B polynomials whose coefficients are listed in order. -/
def listRatio (num den : List K) (x y z : K) : K :=
  rpcPoly (fun i => num.getD i.val 0) x y z / rpcPoly (fun i => den.getD i.val 0) x y z

/-- Specification: the quotient is defined. -/
def RatioDefined (den : List K) (x y z : K) : Prop := rpcPoly (fun i => den.getD i.val 0) x y z ≠ 0

/-- C50. The location of the model built from the parameters of a file: rows with the line parameters, columns with the sample
parameters, at the normalised longitude, latitude and height in this order. -/
theorem C50_location_formula (p : RpcParams K) (hp : p.numCol ≠ []) (lon lat alt : K) (hv : ValidLonLat lon lat)
    (hd1 : RatioDefined p.denRow ((lon - p.offsetX) / p.scaleX) ((lat - p.offsetY) / p.scaleY) ((alt - p.offsetAlt) / p.scaleAlt))
    (hd2 : RatioDefined p.denCol ((lon - p.offsetX) / p.scaleX) ((lat - p.offsetY) / p.scaleY) ((alt - p.offsetAlt) / p.scaleAlt)) :
    inverseLocPy (rpcOfParams p) [some lon] [some lat] [some alt] = .ok (.rows [⟨
      some (listRatio p.numRow p.denRow ((lon - p.offsetX) / p.scaleX) ((lat - p.offsetY) / p.scaleY)
        ((alt - p.offsetAlt) / p.scaleAlt) * p.scaleRow + p.offsetRow),
      some (listRatio p.numCol p.denCol ((lon - p.offsetX) / p.scaleX) ((lat - p.offsetY) / p.scaleY)
        ((alt - p.offsetAlt) / p.scaleAlt) * p.scaleCol + p.offsetCol), some alt⟩]) := by
  have hq : (rpcOfParams p).inverse = some ⟨coefOf p.numCol, coefOf p.denCol, coefOf p.numRow, coefOf p.denRow⟩ := by
    simp only [rpcOfParams, if_neg hp]
  obtain ⟨out, h, hlen, hout⟩ := C21_inverse_loc (rpcOfParams p) _ hq [some lon] [some lat] [some alt] rfl rfl
  have h0 := (hout 0 (some lon) (some lat) (some alt) rfl rfl rfl).1 lon lat alt rfl rfl rfl hv ⟨hd2, hd1⟩
  rw [h]
  match out, hlen, h0 with
  | [o], _, h0 =>
    simp only [List.getElem?_cons_zero, Option.some.injEq] at h0
    rw [h0]
    rfl

/-- C50. The same for the direct coefficients, when the file has them: longitude with the X parameters, latitude with the Y
parameters, at the normalised column, row and height in this order. -/
theorem C50_direct_formula (p : RpcParams K) (nx dx ny dy : List K) (hnx : p.numX = some nx) (hne : nx ≠ []) (hdx : p.denX = some dx)
    (hny : p.numY = some ny) (hdy : p.denY = some dy) (row col alt : K)
    (hd1 : RatioDefined dx ((col - p.offsetCol) / p.scaleCol) ((row - p.offsetRow) / p.scaleRow) ((alt - p.offsetAlt) / p.scaleAlt))
    (hd2 : RatioDefined dy ((col - p.offsetCol) / p.scaleCol) ((row - p.offsetRow) / p.scaleRow) ((alt - p.offsetAlt) / p.scaleAlt))
    (hv : ValidLonLat
      (listRatio nx dx ((col - p.offsetCol) / p.scaleCol) ((row - p.offsetRow) / p.scaleRow) ((alt - p.offsetAlt) / p.scaleAlt) * p.scaleX +
        p.offsetX)
      (listRatio ny dy ((col - p.offsetCol) / p.scaleCol) ((row - p.offsetRow) / p.scaleRow) ((alt - p.offsetAlt) / p.scaleAlt) * p.scaleY +
        p.offsetY)) (fillNan : Bool) :
    directLocH (rpcOfParams p) [some row] [some col] [some alt] fillNan true = .ok [⟨
      some (listRatio nx dx ((col - p.offsetCol) / p.scaleCol) ((row - p.offsetRow) / p.scaleRow) ((alt - p.offsetAlt) / p.scaleAlt) *
        p.scaleX + p.offsetX),
      some (listRatio ny dy ((col - p.offsetCol) / p.scaleCol) ((row - p.offsetRow) / p.scaleRow) ((alt - p.offsetAlt) / p.scaleAlt) *
        p.scaleY + p.offsetY), some alt⟩] := by
  have hq : (rpcOfParams p).direct = some ⟨coefOf nx, coefOf dx, coefOf ny, coefOf dy⟩ := by
    cases nx with
    | nil => exact absurd rfl hne
    | cons a l => simp only [rpcOfParams, hnx, hdx, hny, hdy, Option.getD_some]
  obtain ⟨out, h, hout⟩ := C27_direct_coefficients (rpcOfParams p) _ hq [some row] [some col] [some alt] fillNan rfl rfl
  have hlen := (C25_direct_loc_h (rpcOfParams p) [some row] [some col] [some alt] fillNan true rfl rfl h).1
  have h0 := hout 0 row col alt rfl rfl rfl ⟨hd1, hd2⟩
  rw [h]
  match out, hlen, h0 with
  | [o], _, h0 =>
    simp only [List.getElem?_cons_zero, Option.some.injEq] at h0
    rw [h0]
    have hv' : ValidLonLat (directLon (rpcOfParams p) ⟨coefOf nx, coefOf dx, coefOf ny, coefOf dy⟩ row col alt)
      (directLat (rpcOfParams p) ⟨coefOf nx, coefOf dx, coefOf ny, coefOf dy⟩ row col alt) := hv
    rw [checkRow_valid hv']
    rfl

/-- C50. From the RPC tags of an image to the coordinates: row = LINE_NUM / LINE_DEN * LINE_SCALE + LINE_OFF + 1/2 and column =
SAMP_NUM / SAMP_DEN * SAMP_SCALE + SAMP_OFF + 1/2 at the normalised LONG, LAT, HEIGHT. -/
theorem C50_rasterio_location (r : RioRpc K) (hr : r.sampNum ≠ []) (lon lat alt : K) (hv : ValidLonLat lon lat)
    (hd1 : RatioDefined r.lineDen ((lon - r.longOff) / r.longScale) ((lat - r.latOff) / r.latScale) ((alt - r.heightOff) / r.heightScale))
    (hd2 : RatioDefined r.sampDen ((lon - r.longOff) / r.longScale) ((lat - r.latOff) / r.latScale) ((alt - r.heightOff) / r.heightScale)) :
    inverseLocPy (rpcOfParams (convertRio r true)) [some lon] [some lat] [some alt] = .ok (.rows [⟨
      some (listRatio r.lineNum r.lineDen ((lon - r.longOff) / r.longScale) ((lat - r.latOff) / r.latScale)
        ((alt - r.heightOff) / r.heightScale) * r.lineScale + (r.lineOff + 1 / 2)),
      some (listRatio r.sampNum r.sampDen ((lon - r.longOff) / r.longScale) ((lat - r.latOff) / r.latScale)
        ((alt - r.heightOff) / r.heightScale) * r.sampScale + (r.sampOff + 1 / 2)), some alt⟩]) :=
  C50_location_formula (convertRio r true) hr lon lat alt hv hd1 hd2

/-- Tags for an example: LINE_NUM = latitude, SAMP_NUM = longitude, denominators 1. -/
def rioEx : RioRpc ℚ := ⟨0, 1, 10, 2, [1], [0, 0, 1], 100, 50, 20, 4, [1], [0, 1], 300, 70⟩

/-- The hypotheses of `C50_rasterio_location` are met, and its formula gives these numbers. -/
example : ValidLonLat (21 : ℚ) 11 ∧ RatioDefined rioEx.lineDen ((21 - rioEx.longOff) / rioEx.longScale) ((11 - rioEx.latOff) / rioEx.latScale)
      ((5 - rioEx.heightOff) / rioEx.heightScale) ∧
    RatioDefined rioEx.sampDen ((21 - rioEx.longOff) / rioEx.longScale) ((11 - rioEx.latOff) / rioEx.latScale)
      ((5 - rioEx.heightOff) / rioEx.heightScale) ∧
    listRatio rioEx.lineNum rioEx.lineDen ((21 - rioEx.longOff) / rioEx.longScale) ((11 - rioEx.latOff) / rioEx.latScale)
      ((5 - rioEx.heightOff) / rioEx.heightScale) * rioEx.lineScale + (rioEx.lineOff + 1 / 2) = 100 + 25 + 1 / 2 ∧
    listRatio rioEx.sampNum rioEx.sampDen ((21 - rioEx.longOff) / rioEx.longScale) ((11 - rioEx.latOff) / rioEx.latScale)
      ((5 - rioEx.heightOff) / rioEx.heightScale) * rioEx.sampScale + (rioEx.sampOff + 1 / 2) = 300 + 70 / 4 + 1 / 2 := by
  refine ⟨?_, ?_, ?_, ?_, ?_⟩
  · decide +kernel
  · unfold RatioDefined; decide +kernel
  · unfold RatioDefined; decide +kernel
  · decide +kernel
  · decide +kernel

end Shareloc
