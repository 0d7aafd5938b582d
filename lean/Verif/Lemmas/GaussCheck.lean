/-!
A check of a table of nodes and weights that the kernel can run.  The numbers are numerators over
`10^129`.  No import.
-/

namespace Verif.Gauss

/-- The denominator. -/
def scale : Nat := 10 ^ 129

/-- A sum. -/
def total : List Nat → Nat
  | [] => 0
  | a :: l => a + total l

/-- Powers are multiplied by the square of the nodes, rounding down. -/
def raise : List Nat → List Nat → List Nat
  | y :: ys, p :: ps => (p * y / (scale * scale)) :: raise ys ps
  | _, _ => []

/-- A sum is `2 / (2 k + 1)` up to `10^51 / 10^129`. -/
def close (s k : Nat) : Bool :=
  Nat.ble (s * (2 * k + 1)) (2 * scale + 10 ^ 51) && Nat.ble (2 * scale) (s * (2 * k + 1) + 10 ^ 51)

/-- The even moments from `k` on. -/
def moments (ys : List Nat) : Nat → Nat → List Nat → Bool
  | 0, _, _ => true
  | n + 1, k, ps => close (total ps) k && moments ys n (k + 1) (raise ys ps)

/-- Strictly increasing, above `a` and below `scale`. -/
def increasing : Int → List Int → Bool
  | a, [] => decide (a < scale)
  | a, x :: l => decide (a < x) && increasing x l

/-- All the checks. -/
def good (n : Nat) (xs : List Int) (ws : List Nat) : Bool :=
  decide (xs.length = n) && decide (ws.length = n) && decide (n ≤ 128) &&
  increasing (-(scale : Int)) xs && decide (xs.map (fun x => -x) = xs.reverse) && decide (ws.reverse = ws) &&
  ws.all (fun w => Nat.ble 1 w) && moments (xs.map fun x => x.natAbs * x.natAbs) n 0 ws

end Verif.Gauss
