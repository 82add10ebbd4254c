import Verif.Spec.Symmetry

/-! The optical length of paths. -/

namespace Tracer

variable {E σ : Type _}

/-- The length of a vector. -/
noncomputable def V3.length (v : V3 ℝ) : ℝ := √(V3.dot v v)

/-- The optical length of the path through the given points: the length of each stretch times the refractive index there. -/
noncomputable def opticalLength : List ℝ → List (V3 ℝ) → ℝ
  | n :: ns, p :: q :: rest => n * (q - p).length + opticalLength ns (q :: rest)
  | _, _ => 0

/-- `rays` are the rays of the tree that lead from the source ray `q` to the ray `r` of bundle number `k`: after `q`, each is a child of the
one before it, and the last is `r`. -/
inductive Lineage (tree : List (Bundle ℝ E)) (q : Ray ℝ E) : Nat → Ray ℝ E → List (Ray ℝ E) → Prop
  | source {src : Bundle ℝ E} : tree[0]? = some src → q ∈ src → Lineage tree q 0 q []
  | child {k : Nat} {lvl prev : Bundle ℝ E} {r p : Ray ℝ E} {rays : List (Ray ℝ E)} :
      tree[k + 1]? = some lvl → r ∈ lvl → tree[k]? = some prev → prev[r.parent]? = some p →
      Lineage tree q k p rays → Lineage tree q (k + 1) r (rays ++ [r])

/-- `S` is the tangent plane of a surface at a point `v` where it was hit: the plane through `v` perpendicular to the normal reported there. -/
def TangentPlane (s : SceneSurf σ ℝ E) (v : V3 ℝ) (S : V3 ℝ → Prop) : Prop :=
  ∃ (rays : Bundle ℝ E) (i : Nat) (p : Ray ℝ E) (t : ℝ), rays[i]? = some p ∧ (s.data.1.find s.temp rays)[i]? = some (t : WithTop ℝ) ∧
    v = p.at t ∧ S = fun q => V3.dot (s.data.1.normal s.temp v p.dir) (q - v) = 0

end Tracer
