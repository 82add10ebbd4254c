import Verif.Spec.MonteCarlo

/-! Specification for C114: what it costs to stop a trace after some iterations, or at rays that have become weak. -/

namespace Tracer

variable {E σ : Type _}

/-- The mirrors and receivers of the package that return at most the share `ρ` of the energy of a ray, and no less than nothing. -/
inductive ReturnsAtMost (ρ : ℝ) : Optics σ ℝ E → Prop
  | mirror (absorptivity : ℝ) : 1 - absorptivity ≤ ρ → absorptivity ≤ 1 → ReturnsAtMost ρ (reflective absorptivity)
  | oneSided (absorptivity : ℝ) : 1 - absorptivity ≤ ρ → absorptivity ≤ 1 → ReturnsAtMost ρ (absorberReflector absorptivity)
  | receiver (absorptivity : ℝ) (get set) (opt) : ReturnsAtMost ρ opt → ReturnsAtMost ρ (accountant absorptivity get set opt)

/-- A scene of plain objects with mirrors and receivers that return at most the share `ρ` of the energy of a ray.  One receiver is watched; it
absorbs the share `a` and reflects the rest, or the rest of what comes from the front.  `get` reads its memory, which is empty at first and to
which nobody else writes. -/
structure CountedScene (ρ : ℝ) (objs : List (Obj σ ℝ E)) (w : σ) (get : σ → Account ℝ) (a : ℝ) : Prop where
  plain : ∀ o ∈ objs, o.Plain
  surfaces : AllSurfs (fun s => ∃ g opt frame, s = mkSurf g opt frame ∧ PlainGeometry g ∧ ReturnsAtMost ρ opt) objs
  shares : 0 ≤ ρ ∧ ρ ≤ 1 ∧ 0 ≤ a ∧ a ≤ 1
  empty : get w = Account.reset
  receiver : ∃ x ∈ sites objs, ∃ g opt frame set, x.surf = mkSurf g (accountant a get set opt) frame ∧
    (opt = reflective a ∨ opt = absorberReflector a) ∧ (∀ acc w, get (set acc w) = acc) ∧
    ∀ y ∈ sites objs, ¬ (y.obj = x.obj ∧ y.num = x.num) → y.surf.Ignores get

/-- The rays of the generations up to `reps` that set out again never have two nearest surfaces. -/
def GoingsUntied (per : Surf σ ℝ E → Ray ℝ E → WithTop ℝ) (out : Surf σ ℝ E → Ray ℝ E → Bundle ℝ E)
    (pol : Nat → Policy ℝ E) (xs : List (Site σ ℝ E)) (minE : ℝ) (b : Bundle ℝ E) (reps : Nat) : Prop :=
  ∀ k < reps, ∀ g ∈ setOut minE k (goingGeneration per out pol xs minE b k), ∀ y ∈ xs, ∀ z ∈ xs,
    g.Meets dropTol per pol xs y → g.Meets dropTol per pol xs z → y = z

end Tracer
