import Verif.Model.Rpc
import Mathlib.Algebra.BigOperators.Fin

/-!
Specification of an RPC, written from the RPC00B standard (STDI-0002, appendix RPC00B) and independently
of the code: a table of exponents, a sum of monomials, a quotient, a normalisation.
-/

namespace Shareloc
variable {K : Type*} [Field K] [LinearOrder K] [IsStrictOrderedRing K]

/-- The RPC00B order of the terms, as exponents of (longitude L, latitude P, height H):
1, L, P, H, LP, LH, PH, L², P², H², LPH, L³, LP², LH², L²P, P³, PH², L²H, P²H, H³. -/
def rpc00bOrder : Fin 20 → ℕ × ℕ × ℕ :=
  ![(0, 0, 0), (1, 0, 0), (0, 1, 0), (0, 0, 1), (1, 1, 0), (1, 0, 1), (0, 1, 1), (2, 0, 0), (0, 2, 0),
    (0, 0, 2), (1, 1, 1), (3, 0, 0), (1, 2, 0), (1, 0, 2), (2, 1, 0), (0, 3, 0), (0, 1, 2), (2, 0, 1),
    (0, 2, 1), (0, 0, 3)]

/-- Sum of the coefficients times the RPC00B monomials. -/
def rpcPoly (c : Coef K) (x y z : K) : K :=
  ∑ i, c i * (x ^ (rpc00bOrder i).1 * y ^ (rpc00bOrder i).2.1 * z ^ (rpc00bOrder i).2.2)

/-- Image column of a ground point: rescaled quotient at normalised coordinates. -/
def imgCol (r : Rpc K) (q : RatCoefs K) (lon lat alt : K) : K :=
  rpcPoly q.numA ((lon - r.offX) / r.scX) ((lat - r.offY) / r.scY) ((alt - r.offAlt) / r.scAlt) /
  rpcPoly q.denA ((lon - r.offX) / r.scX) ((lat - r.offY) / r.scY) ((alt - r.offAlt) / r.scAlt) *
    r.scCol + r.offCol

/-- Image row of a ground point. -/
def imgRow (r : Rpc K) (q : RatCoefs K) (lon lat alt : K) : K :=
  rpcPoly q.numB ((lon - r.offX) / r.scX) ((lat - r.offY) / r.scY) ((alt - r.offAlt) / r.scAlt) /
  rpcPoly q.denB ((lon - r.offX) / r.scX) ((lat - r.offY) / r.scY) ((alt - r.offAlt) / r.scAlt) *
    r.scRow + r.offRow

/-- The rational functions are defined at a ground point. -/
def RatDefined (r : Rpc K) (q : RatCoefs K) (lon lat alt : K) : Prop :=
  rpcPoly q.denA ((lon - r.offX) / r.scX) ((lat - r.offY) / r.scY) ((alt - r.offAlt) / r.scAlt) ≠ 0 ∧
  rpcPoly q.denB ((lon - r.offX) / r.scX) ((lat - r.offY) / r.scY) ((alt - r.offAlt) / r.scAlt) ≠ 0

instance (r : Rpc K) (q : RatCoefs K) (lon lat alt : K) : Decidable (RatDefined r q lon lat alt) :=
  inferInstanceAs (Decidable (_ ∧ _))

/-- Ground longitude of an image point, by the direct coefficients. -/
def directLon (r : Rpc K) (q : RatCoefs K) (row col alt : K) : K :=
  rpcPoly q.numA ((col - r.offCol) / r.scCol) ((row - r.offRow) / r.scRow) ((alt - r.offAlt) / r.scAlt) /
  rpcPoly q.denA ((col - r.offCol) / r.scCol) ((row - r.offRow) / r.scRow) ((alt - r.offAlt) / r.scAlt) *
    r.scX + r.offX

/-- Ground latitude of an image point, by the direct coefficients. -/
def directLat (r : Rpc K) (q : RatCoefs K) (row col alt : K) : K :=
  rpcPoly q.numB ((col - r.offCol) / r.scCol) ((row - r.offRow) / r.scRow) ((alt - r.offAlt) / r.scAlt) /
  rpcPoly q.denB ((col - r.offCol) / r.scCol) ((row - r.offRow) / r.scRow) ((alt - r.offAlt) / r.scAlt) *
    r.scY + r.offY

/-- The direct rational functions are defined at an image point. -/
def DirectDefined (r : Rpc K) (q : RatCoefs K) (row col alt : K) : Prop :=
  rpcPoly q.denA ((col - r.offCol) / r.scCol) ((row - r.offRow) / r.scRow) ((alt - r.offAlt) / r.scAlt) ≠ 0 ∧
  rpcPoly q.denB ((col - r.offCol) / r.scCol) ((row - r.offRow) / r.scRow) ((alt - r.offAlt) / r.scAlt) ≠ 0

/-- A longitude and latitude in degrees that make sense. -/
def ValidLonLat (lon lat : K) : Prop := |lon| ≤ 180 ∧ |lat| ≤ 90

instance (lon lat : K) : Decidable (ValidLonLat lon lat) := inferInstanceAs (Decidable (_ ∧ _))

/-- The inverse model is affine in longitude and latitude: numerators have no term of degree two or more in
them, denominators only terms in the height. -/
def AffineInLonLat (q : RatCoefs K) : Prop :=
  (∀ i, 2 ≤ (rpc00bOrder i).1 + (rpc00bOrder i).2.1 → q.numA i = 0 ∧ q.numB i = 0) ∧
  (∀ i, 1 ≤ (rpc00bOrder i).1 + (rpc00bOrder i).2.1 → q.denA i = 0 ∧ q.denB i = 0)

end Shareloc
