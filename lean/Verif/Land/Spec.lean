import Verif.Land.Model
/-
What a straight pixel path and a land hit are, independently of the march.
-/
namespace Verif.Land

/-- Offset along the minor axis of the pixel nearest to the exact line after
`k` steps along the major axis (`D` the major, `d` the minor extent); a tie
goes to the smaller offset. -/
def nearest (D d : Int) (k : Nat) : Int := (2 * k * d + D - 1) / (2 * D)

/-- Number of moves of the path: the larger extent. -/
def steps (p q : Int × Int) : Nat := max (q.1 - p.1).natAbs (q.2 - p.2).natAbs

/-- The `k`-th pixel of the straight path from `p` to `q`. -/
def pix (p q : Int × Int) (k : Nat) : Int × Int :=
  let dx : Int := ((q.1 - p.1).natAbs : Int)
  let dy : Int := ((q.2 - p.2).natAbs : Int)
  let sx : Int := if p.1 < q.1 then 1 else -1
  let sy : Int := if p.2 < q.2 then 1 else -1
  if dy ≤ dx then (p.1 + sx * k, p.2 + sy * nearest dx dy k)
  else (p.1 + sx * nearest dy dx k, p.2 + sy * k)

/-- A pixel of the raster. -/
def inside (g : Grid) (c : Int × Int) : Prop :=
  0 ≤ c.1 ∧ c.1 < g.m ∧ 0 ≤ c.2 ∧ c.2 < g.n

instance (g : Grid) (c : Int × Int) : Decidable (inside g c) := by
  unfold inside; infer_instance

/-- A land pixel: inside of the raster, with a non-zero value. -/
def land (g : Grid) (c : Int × Int) : Prop :=
  inside g c ∧ g.data.getD (c.1.toNat * g.n + c.2.toNat) 0 ≠ 0

instance (g : Grid) (c : Int × Int) : Decidable (land g c) := by
  unfold land; infer_instance

/-- The path from `a` to the neighbouring pixel `b` squeezes between two land
pixels: a diagonal move inside of the raster with land on both sides. -/
def squeeze (g : Grid) (a b : Int × Int) : Prop :=
  inside g a ∧ inside g b ∧ a.1 ≠ b.1 ∧ a.2 ≠ b.2 ∧ land g (b.1, a.2) ∧ land g (a.1, b.2)

instance (g : Grid) (a b : Int × Int) : Decidable (squeeze g a b) := by
  unfold squeeze; infer_instance

/-- What stops the path at its `k`-th pixel, if anything. -/
def stop (g : Grid) (p q : Int × Int) (k : Nat) : Option (Int × Int) :=
  if land g (pix p q k) then some (pix p q k)
  else if 0 < k ∧ squeeze g (pix p q (k - 1)) (pix p q k) then
    some ((pix p q k).1, (pix p q (k - 1)).2)
  else none

end Verif.Land
