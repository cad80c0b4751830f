import Verif.Model.Memory

/-!
# Which arrays share memory
-/

namespace Meds.Memory

variable {α : Type}

/-- The view lies within an allocated buffer. -/
def Held (μ : Mem α) (v : View) : Prop := ∃ b, μ[v.buf]? = some b ∧ v.off + v.nr * v.nc ≤ b.length

/-- The views have no memory in common. -/
def Apart (v w : View) : Prop := v.buf ≠ w.buf ∨ v.off + v.nr * v.nc ≤ w.off ∨ w.off + w.nr * w.nc ≤ v.off

/-- From memory `μ` to `μ'` the arrays `vs` have been added: they share memory neither with one another nor with any older array, and the older arrays are there
as before. -/
structure NewArrays (μ μ' : Mem α) (vs : List View) : Prop where
  held : ∀ v ∈ vs, Held μ' v
  apart : vs.Pairwise Apart
  old : ∀ u, Held μ u → Held μ' u ∧ u.read μ' = u.read μ ∧ ∀ v ∈ vs, Apart u v

/-- A call that hands out arrays does what a function on values says: the same exceptions, new arrays, and in them the values. -/
def Returns (μ : Mem α) (call : Res (Mem α × List View)) (values : Res (List (Img α))) : Prop :=
  match call, values with
  | .error e, .error e' => e = e'
  | .ok r, .ok ims => NewArrays μ r.1 r.2 ∧ r.2.map (·.read r.1) = ims
  | _, _ => False

/-- A call that hands out one array, as a list. -/
def one (call : Res (Mem α × View)) : Res (Mem α × List View) := call.map (fun r => (r.1, [r.2]))

/-- What the caller does with arrays: store values at pixels, one after the other. -/
def stores (μ : Mem α) (l : List (View × Nat × Nat × α)) : Mem α := l.foldl (fun μ s => s.1.set μ s.2.1 s.2.2.1 s.2.2.2) μ

end Meds.Memory
