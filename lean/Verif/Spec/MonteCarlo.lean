import Verif.Spec.Tally
import Verif.Spec.Relabel
import Verif.Spec.Catalogue
import Verif.Spec.Going
import Verif.Props.Receivers
import Mathlib.MeasureTheory.MeasurableSpace.Basic
import Mathlib.MeasureTheory.Constructions.BorelSpace.Basic
import Mathlib.MeasureTheory.Constructions.BorelSpace.Real

/-! Rays that are drawn at random. -/

namespace Tracer

open MeasureTheory

variable {E δ : Type _} [MeasurableSpace δ]

/-- A vector that depends measurably on what is drawn. -/
structure V3M (v : δ → V3 ℝ) : Prop where
  x : Measurable fun d => (v d).x
  y : Measurable fun d => (v d).y
  z : Measurable fun d => (v d).z

/-- A number or infinity that depends measurably on what is drawn. -/
def TopM (f : δ → WithTop ℝ) : Prop :=
  ∃ (p : δ → Prop) (t : δ → ℝ), MeasurableSet {d | p d} ∧ Measurable t ∧ (∀ d, p d → f d = ((t d : ℝ) : WithTop ℝ)) ∧
    ∀ d, ¬ p d → f d = ⊤

/-- A ray whose start, direction and energy depend measurably on what is drawn. -/
structure RayM (r : δ → Ray ℝ E) : Prop where
  vertex : V3M fun d => (r d).vertex
  dir : V3M fun d => (r d).dir
  energy : Measurable fun d => (r d).energy

/-- Weights of the places on a receiver: a bounded function that can be integrated.  The weight 1 everywhere gives the whole energy, and the
weight that is 1 in a cell and 0 outside gives that cell of a flux map. -/
structure Weights (φ : V3 ℝ → ℝ) : Prop where
  measurable : Measurable fun p : ℝ × ℝ × ℝ => φ ⟨p.1, p.2.1, p.2.2⟩
  bounded : ∃ C, ∀ p, |φ p| ≤ C

variable {σ : Type _}

/-- A scene of plain objects with the mirrors and receivers of the package.  One receiver, of absorptivity `a`, is watched: `get` reads its
memory, which is empty at first and to which nobody else writes. -/
structure WatchedScene (objs : List (Obj σ ℝ E)) (w : σ) (get : σ → Account ℝ) (a : ℝ) : Prop where
  plain : ∀ o ∈ objs, o.Plain
  mirrors : AllSurfs PlainMirror objs
  empty : get w = Account.reset
  receiver : ∃ x ∈ sites objs, ∃ g opt frame set, x.surf = mkSurf g (accountant a get set opt) frame ∧ (∀ acc w, get (set acc w) = acc) ∧
    KeepsMemory get opt ∧ ∀ y ∈ sites objs, ¬ (y.obj = x.obj ∧ y.num = x.num) → y.surf.Ignores get

/-- After a trace of the bundle, the energies that `get_all_hits` of the watched receiver returns, each times the weight of the place that is
returned with it, add up to `e`. -/
def Collects (objs : List (Obj σ ℝ E)) (w : σ) (get : σ → Account ℝ) (φ : V3 ℝ → ℝ) (b : Bundle ℝ E) (reps : Nat) (minE e : ℝ) : Prop :=
  ∃ res, rayTracer objs w b reps minE true = .ok res ∧
    ∃ es ps, (get res.world).getAllHits = .ok (es, ps) ∧ (List.zipWith (fun e p => e * φ p) es ps).sum = e

/-- A bundle of `n` rays that stands for the light of a source: each ray is drawn, and carries a share 1/`n` of its energy. -/
noncomputable def drawnBundle (ray : δ → Ray ℝ E) (draw : Nat → δ) (n : Nat) : Bundle ℝ E :=
  (List.range n).map fun i => (ray (draw i)).scale (1 / n)

end Tracer
