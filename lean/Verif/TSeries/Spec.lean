import Verif.TSeries.Model

/-! # What a time series is supposed to mean -/

namespace Verif.TSeries

/-- Times strictly ascending. -/
def Ascending (ts : List TV) : Prop :=
  ∀ (i j : Nat) (p q : TV), ts[i]? = some p → ts[j]? = some q → i < j → p.time < q.time

/-- `x` is where the straight line from `(p.time, a)` to `(q.time, b)` passes at `t`. -/
def OnLine (p q : TV) (a b : ℚ) (t : Int) (x : ℚ) : Prop :=
  x * (q.time - p.time) = a * (q.time - t) + b * (t - p.time)

end Verif.TSeries
