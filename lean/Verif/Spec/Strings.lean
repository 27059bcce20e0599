/-!
# Specification: strings
-/

namespace Cdx.Spec

/-- `Pieces sep s ws`: `ws` are, in order, the maximal non-empty stretches of `s` without
separator. -/
inductive Pieces (sep : Char → Prop) : List Char → List (List Char) → Prop
  | done {s} : (∀ c ∈ s, sep c) → Pieces sep s []
  | piece {pre w rest ws} : (∀ c ∈ pre, sep c) → w ≠ [] → (∀ c ∈ w, ¬ sep c) →
      (∀ c, rest.head? = some c → sep c) → Pieces sep rest ws →
      Pieces sep (pre ++ w ++ rest) (w :: ws)

/-- The pieces of several strings, one after the other. -/
inductive AllPieces (sep : Char → Prop) : List String → List String → Prop
  | nil : AllPieces sep [] []
  | cons {s : String} {ss ws vs} : Pieces sep s.toList ws → AllPieces sep ss vs →
      AllPieces sep (s :: ss) (ws.map String.ofList ++ vs)

end Cdx.Spec

namespace Cdx.Spec

/-- The value of a lower-case hexadecimal digit. -/
def hexVal : Char → Option Nat
  | '0' => some 0 | '1' => some 1 | '2' => some 2 | '3' => some 3 | '4' => some 4
  | '5' => some 5 | '6' => some 6 | '7' => some 7 | '8' => some 8 | '9' => some 9
  | 'a' => some 10 | 'b' => some 11 | 'c' => some 12 | 'd' => some 13 | 'e' => some 14
  | 'f' => some 15 | _ => none

/-- Two lower-case hexadecimal digits per byte. -/
inductive HexOf : List UInt8 → List Char → Prop
  | nil : HexOf [] []
  | cons {b : UInt8} {bs : List UInt8} {hi lo : Char} {cs : List Char} {x y : Nat} :
      hexVal hi = some x → hexVal lo = some y → b.toNat = 16 * x + y → HexOf bs cs →
      HexOf (b :: bs) (hi :: lo :: cs)

end Cdx.Spec
