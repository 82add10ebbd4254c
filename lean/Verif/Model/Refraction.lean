import Verif.Model.Optics
import Verif.Model.Sources

/-!
# Refraction and diffuse reflection (optics.py, optics_callables.py), over the reals

All arithmetic is that of real numbers.  The code runs under Python 2, where dividing two integer
arrays rounds down; the model assumes that refractive indices are given as floats.
-/

namespace Tracer

open Real

variable {E σ : Type _}

/-! ### optics.py -/

/-- `optics.fresnel` for one ray (optics.py:10-37), where it is defined. -/
noncomputable def fresnelOne (d n : V3 ℝ) (n1 n2 : ℝ) : ℝ :=
  let thetaIn := arccos |V3.dot n d|
  let foo := cos thetaIn
  let bar := √(1 - (n1 / n2 * sin thetaIn) ^ 2)
  let rs := ((n1 * foo - n2 * bar) / (n1 * foo + n2 * bar)) ^ 2
  let rp := ((n1 * bar - n2 * foo) / (n1 * bar + n2 * foo)) ^ 2
  (rs + rp) / 2

/-- NumPy divides 0 by 0 in `optics.fresnel` (optics.py:30-31) if a denominator is zero: the reflectance is
nan. -/
noncomputable def fresnelDefined (d n : V3 ℝ) (n1 n2 : ℝ) : Bool :=
  let thetaIn := arccos |V3.dot n d|
  let foo := cos thetaIn
  let bar := √(1 - (n1 / n2 * sin thetaIn) ^ 2)
  decide (n1 * foo + n2 * bar ≠ 0) && decide (n1 * bar + n2 * foo ≠ 0)

/-- An entry of `refracted` in `optics.refractions` (optics.py:71-74). -/
noncomputable def refractedOne (n1 n2 : ℝ) (d m : V3 ℝ) : Bool :=
  let n := n2 / n1
  let cos1 := V3.dot m d
  decide (cos1 ^ 2 ≥ 1 - n ^ 2)

/-- A column of `refr_dirs` in `optics.refractions` (optics.py:71-84). -/
noncomputable def refractOne (n1 n2 : ℝ) (d m : V3 ℝ) : V3 ℝ :=
  let n := n2 / n1
  let cos1 := V3.dot m d
  let cos2 := √(1 - 1 / n ^ 2 * (1 - cos1 ^ 2))
  let e : V3 ℝ := ⟨(d.x - cos1 * m.x) / n, (d.y - cos1 * m.y) / n, (d.z - cos1 * m.z) / n⟩
  let s : ℝ := if cos1 < 0 then -1 else 1
  ⟨e.x + m.x * cos2 * s, e.y + m.y * cos2 * s, e.z + m.z * cos2 * s⟩

/-- One ray's arguments of `optics.refractions` (optics.py:53-62). -/
structure Incidence where
  n1 : ℝ
  n2 : ℝ
  dir : V3 ℝ
  normal : V3 ℝ

/-- `optics.refractions(n1, n2, ray_dirs, normals)` (optics.py:53-86), one entry per ray: the mask of
rays that refract, and the directions of those. -/
noncomputable def refractions (rays : List Incidence) : List Bool × List (V3 ℝ) :=
  let refracted := rays.map fun i => refractedOne i.n1 i.n2 i.dir i.normal
  (refracted, (Np.mask refracted rays).map fun i => refractOne i.n1 i.n2 i.dir i.normal)

/-! ### RefractiveHomogenous (optics_callables.py:99-161) -/

/-- `toggle_ref_idx(current)` for one ray (optics_callables.py:114-127). -/
noncomputable def toggleRefIdx (a b current : ℝ) : ℝ := if current = a then b else a

/-- `rays.get_ref_index()[selector]` (optics_callables.py:133): the array has to be set. -/
def refIndices {K : Type _} : List (HitRec K E) → Except Err (List K)
  | [] => .ok []
  | h :: hits =>
    match h.ray.ref with
    | none => .error .attribute
    | some n =>
      match refIndices hits with
      | .error e => .error e
      | .ok ns => .ok (n :: ns)

/-- One row of the reflected bundle (optics_callables.py:149-154) -/
noncomputable def reflectedRay (h : HitRec ℝ E) (R : ℝ) : Ray ℝ E :=
  { h.ray with
    vertex := h.point
    dir := reflection h.ray.dir h.normal
    energy := h.ray.energy * R
    parent := h.idx }

/-- One row of the refracted bundle (optics_callables.py:156-159) -/
noncomputable def refractedRay (h : HitRec ℝ E) (R n2 : ℝ) (dir : V3 ℝ) : Ray ℝ E :=
  { h.ray with
    vertex := h.point
    dir := dir
    energy := h.ray.energy * (1 - R)
    parent := h.idx
    ref := some n2 }

/-- `RefractiveHomogenous(a, b)` (optics_callables.py:99-161).  The empty selection fails: the code asks the
module `ray_bundle` for a function it does not have.  Simplification: the sum of two bundles
inherited from the same bundle is taken to be the list of all their rays, see
`Props/Bundle.lean` for `+`.  An undefined reflectance would make energies nan, the model reports that
as `Err.nonfinite`. -/
noncomputable def refractiveHomogenous (a b : ℝ) : Optics σ ℝ E := fun w up hits =>
  if hits.isEmpty then .error .attribute
  else
    match refIndices hits with
    | .error e => .error e
    | .ok n1 =>
      let n2 := n1.map (toggleRefIdx a b)
      let rays := List.zipWith (fun (h : HitRec ℝ E) (n : ℝ × ℝ) => (⟨n.1, n.2, h.ray.dir, h.normal⟩ : Incidence))
        hits (n1.zip n2)
      let refr := (refractions rays).1
      let outDirs := (refractions rays).2
      if ! refr.any id then perfectMirror w up hits
      else if (Np.mask refr rays).any fun i => ! fresnelDefined i.dir i.normal i.n1 i.n2 then .error .nonfinite
      else
        let R := Np.scatter refr ((Np.mask refr rays).map fun i => fresnelOne i.dir i.normal i.n1 i.n2)
          (List.replicate hits.length 1)
        let reflected := List.zipWith reflectedRay hits R
        let refracted := List.zipWith (fun (hR : HitRec ℝ E × ℝ) (nd : ℝ × V3 ℝ) => refractedRay hR.1 hR.2 nd.1 nd.2)
          ((Np.mask refr hits).zip (Np.mask refr R)) ((Np.mask refr n2).zip outDirs)
        .ok (reflected ++ refracted, w)

/-! ### LambertianReflector (optics_callables.py:163-194) -/

/-- `LambertianReflector(absorptivity)` (optics_callables.py:163-189).  The random generator is part of the world
state: `draw n w` are the `n` pairs of numbers `pillbox_sunshape_directions` draws in state `w`,
and the state after that. -/
noncomputable def lambertian (absorptivity : ℝ) (draw : Nat → σ → List (ℝ × ℝ) × σ) : Optics σ ℝ E :=
  fun w _up hits =>
    let directs := pillbox (π / 2) (draw hits.length w).1
    .ok (List.zipWith (fun (h : HitRec ℝ E) d =>
      { h.ray with
        vertex := h.point
        energy := h.ray.energy * (1 - absorptivity)
        dir := (rotationToZ h.normal).mulVec d
        parent := h.idx }) hits directs, (draw hits.length w).2)

/-- `LambertianReceiver(absorptivity)` (optics_callables.py:191-194) -/
noncomputable def lambertianReceiver (absorptivity : ℝ) (draw : Nat → σ → List (ℝ × ℝ) × σ)
    (get : σ → Account ℝ) (set : Account ℝ → σ → σ) : Optics σ ℝ E :=
  accountant absorptivity get set (lambertian absorptivity draw)

end Tracer
