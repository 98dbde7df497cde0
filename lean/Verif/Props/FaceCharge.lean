import Verif.Spec.FaceCharge
import Verif.Lemmas.FaceCharge

/-! # C109: the fields of a prism as integrals over its faces -/

namespace Choclo

open Real MeasureTheory Set Filter Topology

variable {P : Box}

/-! ## C109 -/

theorem faceIntegral_const (P : Box) (a : Axis) (t k : ℝ) (f : Pt → ℝ) :
    P.faceIntegral a t (fun q => k * f q) = k * P.faceIntegral a t f := integral_const_mul _ _

/-- The acceleration along an axis is the difference of the potentials of the two faces perpendicular to it, the density
being taken per unit area: at every observation point, outside, inside, on faces, edges and vertices. -/
theorem C109_acceleration (hP : P.Ordered) (a : Axis) (p : Pt) (ρ : ℝ) :
    IsFaceDifference (onPrism (A := Exact) (prismGravity a.acc) p P ρ)
      (fun q => onPair (A := Exact) (pointGravity .pot) p q ρ) P a p := by
  refine ⟨fun q => Gc * ρ * kpp .pot p q, fun q _ hq => Ex.pointGravity_fin _ (Ne.symm hq) ρ,
    (integrableOn_pot_plane P a p _).const_mul _, (integrableOn_pot_plane P a p _).const_mul _, ?_⟩
  rw [faceIntegral_const, faceIntegral_const, ← mul_sub, ← Vacc_faces hP]
  exact acc_returns a p P ρ

theorem integrableOn_sheet {a : Axis} {t : ℝ} {p : Pt} (hp : p ∉ P.sheet a t) (c : KComp) :
    IntegrableOn (fun s => kpp c p (Pt.onPlane a t s)) (P.cross a) :=
  ((continuousOn_kpp_right c p).comp (f := fun s => Pt.onPlane a t s) (t := {q | q ≠ p})
    (by cases a <;> simp only [Pt.onPlane] <;> fun_prop)
    (fun s hs => (sheet_ne hp ⟨s, hs, rfl⟩).symm)).integrableOn_compact (isCompact_cross P a)

/-- Each tensor component is such a difference of accelerations, off the two faces in question. -/
theorem C109_tensor (hP : P.Ordered) (a b : Axis) (p : Pt) (h : p ∉ P.closedFaces b) (ρ : ℝ) :
    IsFaceDifference (onPrism (A := Exact) (prismGravity (tensor a b)) p P ρ)
      (fun q => onPair (A := Exact) (pointGravity a.acc) p q ρ) P b p := by
  have hs := sheet_closed hP h
  refine ⟨fun q => Gc * ρ * kpp a.acc.toK p q, fun q _ hq => Ex.pointGravity_fin _ (Ne.symm hq) ρ,
    (integrableOn_sheet hs.2 _).const_mul _, (integrableOn_sheet hs.1 _).const_mul _, ?_⟩
  rw [faceIntegral_const, faceIntegral_const, ← mul_sub, ← Vtensor_faces hP a b h]
  refine Ex.gravity_returns hP (fun h' => h ?_) ρ
  exact singular_closed_any hP a b h'

/-- Outside the prism the magnetic field is the field of the magnetic charges on its surface: the normal component of the
magnetization, with the inverse square law. -/
theorem C109_magnetic (hP : P.Ordered) (b : Axis) (p : Pt) (h : p ∉ P.region) (M : Vec) :
    Returns (onPrism (A := Exact) (prismMagnetic b.field) p P M.e M.n M.u)
      (P.outwardFlux fun a q => mu0 / (4 * π) * M.coord a * (p.coord b - q.coord b) / dist3 p q ^ 3) := by
  have e : P.outwardFlux (fun a q => mu0 / (4 * π) * M.coord a * (p.coord b - q.coord b) / dist3 p q ^ 3)
      = mu0 / 4 / π * Bc b.field p P M.e M.n M.u := by
    have k : ∀ a t, P.faceIntegral a t (fun q => mu0 / (4 * π) * M.coord a * (p.coord b - q.coord b) / dist3 p q ^ 3)
        = -(mu0 / (4 * π) * M.coord a) * P.faceIntegral a t (kpp b.acc.toK p) := by
      intro a t
      rw [← faceIntegral_const]
      congr 1; funext q
      rw [kpp_acc_dist]; ring
    unfold Box.outwardFlux
    simp only [k]
    have v := fun a => Vtensor_faces hP b a (p := p) (fun h' => h h'.1)
    rw [Bc_field, v, v, v]
    simp only [Pt.coord, Pt.e, Pt.n, Pt.u]
    ring
  rw [e]
  exact Ex.magnetic_returns hP (exterior_edges hP h) (fun h' => h (inside_subset_region h')) _ _ _

/-- The diagonal components are bounded by `4 pi G |density|` wherever they return a number, and by half of it unless the
observation point lies between the two faces perpendicular to the axis. -/
theorem C109_bound (hP : P.Proper) (a : Axis) (p : Pt) (h : p ∉ P.singular (tensor a a)) (ρ : ℝ) :
    ∃ v, Returns (onPrism (A := Exact) (prismGravity (tensor a a)) p P ρ) v ∧ |v| ≤ 4 * π * Gc * |ρ| ∧
      (p.coord a ∉ Ioo (P.lo a) (P.hi a) → |v| ≤ 2 * π * Gc * |ρ|) := by
  obtain ⟨h1, h2⟩ := Vdiag_bound hP a h
  have e : ∀ V : ℝ, |Gc * ρ * V| = Gc * |ρ| * |V| := fun V => by rw [abs_mul, abs_mul, abs_of_pos Gc_pos]
  have h0 : 0 ≤ Gc * |ρ| := mul_nonneg Gc_pos.le (abs_nonneg _)
  refine ⟨_, Ex.gravity_returns hP.ordered h ρ, ?_, fun hp => ?_⟩ <;> rw [e]
  · calc _ ≤ Gc * |ρ| * (4 * π) := mul_le_mul_of_nonneg_left h1 h0
      _ = _ := by ring
  · calc _ ≤ Gc * |ρ| * (2 * π) := mul_le_mul_of_nonneg_left (h2 hp) h0
      _ = _ := by ring

/-- A prism magnetized along an axis: the component of its field along that axis is bounded by `mu0 |magnetization|`, and by
half of it unless the observation point lies between the two faces perpendicular to the axis. -/
theorem C109_magnetic_bound (hP : P.Proper) (a : Axis) (p : Pt) (h : p ∉ P.edges) (h' : p ∉ P.inside) (M : Vec)
    (hM : ∀ b, b ≠ a → M.coord b = 0) :
    ∃ v, Returns (onPrism (A := Exact) (prismMagnetic a.field) p P M.e M.n M.u) v ∧
      |v| ≤ mu0 * |M.coord a| ∧ (p.coord a ∉ Ioo (P.lo a) (P.hi a) → |v| ≤ mu0 * |M.coord a| / 2) := by
  obtain ⟨h1, h2⟩ := Vdiag_bound hP a (edges_singular (tensor a a) h)
  have e : mu0 / 4 / π * Bc a.field p P M.e M.n M.u = mu0 / 4 / π * (M.coord a * Vc (tensor a a) p P) := by
    congr 1
    have he := hM .e
    have hn := hM .n
    have hu := hM .u
    rw [Bc_field]
    cases a <;> simp only [Pt.coord] at *
    · rw [hn (by decide), hu (by decide)]; ring
    · rw [he (by decide), hu (by decide)]; ring
    · rw [he (by decide), hn (by decide)]; ring
  generalize M.coord a = m at *
  refine ⟨_, Ex.magnetic_returns hP.ordered h h' _ _ _, ?_⟩
  have hpi := Real.pi_pos
  have hm := mu0_pos
  have e2 : |mu0 / 4 / π * (m * Vc (tensor a a) p P)| = mu0 * |m| / (4 * π) * |Vc (tensor a a) p P| := by
    rw [abs_mul, abs_mul, abs_of_pos (by positivity)]; field_simp
  have h0 : 0 ≤ mu0 * |m| / (4 * π) := by positivity
  rw [e, e2]
  refine ⟨?_, fun hp => ?_⟩
  · calc _ ≤ mu0 * |m| / (4 * π) * (4 * π) := mul_le_mul_of_nonneg_left h1 h0
      _ = _ := by field_simp
  · calc _ ≤ mu0 * |m| / (4 * π) * (2 * π) := mul_le_mul_of_nonneg_left (h2 hp) h0
      _ = _ := by field_simp; ring

/-- points outside, on an open face (still off the closed faces perpendicular to another axis), on the top face, inside -/
example : exBox.Proper ∧ ((1, 0, 3) : Pt) ∉ exBox.region ∧ ((0, 0, 0) : Pt) ∈ exBox.faceTop ∧
    ((0, 0, 0) : Pt) ∉ exBox.closedFaces .e ∧ ((0, 0, -1) : Pt) ∉ exBox.closedFaces .u ∧
    ((0, 0, 0) : Pt) ∉ exBox.singular (tensor .u .u) ∧ Pt.coord (0, 0, 0) .u ∉ Ioo (exBox.lo .u) (exBox.hi .u) ∧
    ((0, 0, 0) : Pt) ∉ exBox.edges ∧ ((0, 0, 0) : Pt) ∉ exBox.inside := by
  refine ⟨exBox_proper, ?_⟩
  norm_num [exBox, Box.region, Box.faceTop, Box.closedFaces, Pt.coord, Box.lo, Box.hi, tensor, Box.singular, Box.edges,
    Box.edgesE, Box.edgesN, Box.edgesU, Box.inside, Pt.e, Pt.n, Pt.u]

end Choclo
