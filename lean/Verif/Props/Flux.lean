import Verif.Spec.Flux
import Verif.Lemmas.Flux2
import Verif.Props.PrismBounds

/-! # C64, C65, C66: Gauss's law -/

namespace Choclo

open Real Set MeasureTheory

variable {B P : Box}

/-! ## C64 -/

theorem ne_of_surface {p q : Pt} (h : q ∉ B.surface) (hp : p ∈ B.surface) : p ≠ q :=
  fun he => h (he ▸ hp)

theorem point_hasFlux {q : Pt} (h : q ∉ B.surface) (m Φ : ℝ)
    (hΦ : B.outwardFlux (fun a p => kpp a.acc.toK p q) = Φ) :
    HasOutwardFlux (fun a p => onPair (A := Exact) (pointGravity a.acc) p q m) B (Gc * m * Φ) := by
  refine ⟨fun a p => Gc * m * kpp a.acc.toK p q,
    fun a p hp => Ex.pointGravity_fin _ (ne_of_surface h hp) m,
    fun a => ⟨(integrableOn_acc_face B a _ q).const_mul _, (integrableOn_acc_face B a _ q).const_mul _⟩, ?_⟩
  rw [outwardFlux_mul, hΦ]

/-- Gauss's law for a point mass inside a box: the outward flux of the acceleration returned by
`choclo.point` through the surface of the box is `-4 pi G m`, whatever the box and wherever in its
interior the mass is. -/
theorem C64_inside (hB : B.Ordered) (q : Pt) (h : q ∈ B.inside) (m : ℝ) :
    HasOutwardFlux (fun a p => onPair (A := Exact) (pointGravity a.acc) p q m) B
      (-(4 * π * 6.6743e-11 * m)) := by
  have hs : q ∉ B.surface := by
    obtain ⟨⟨a1, a2⟩, ⟨a3, a4⟩, a5, a6⟩ := h
    rintro ⟨a, s, hs, he | he⟩ <;> cases a <;> rw [he] at a1 a2 a3 a4 a5 a6 <;>
      simp only [Pt.onPlane, Box.lo, Box.hi, lt_self_iff_false] at a1 a2 a3 a4 a5 a6
  have e : -(4 * π * 6.6743e-11 * m) = Gc * m * -(4 * π) := by rw [Gc]; ring
  rw [e]
  exact point_hasFlux hs m _ (outwardFlux_point_inside hB h)

/-- Gauss's law for a point mass outside a box: no net flux. -/
theorem C64_outside (hB : B.Ordered) (q : Pt) (h : q ∉ B.region) (m : ℝ) :
    HasOutwardFlux (fun a p => onPair (A := Exact) (pointGravity a.acc) p q m) B 0 := by
  have hs : q ∉ B.surface := by
    obtain ⟨o1, o2, o3⟩ := hB
    rintro ⟨a, s, hs, he⟩
    refine h ?_
    cases a <;> obtain ⟨⟨h1, h2⟩, h3, h4⟩ := hs <;> rcases he with he | he <;> rw [he] <;>
      simp only [Pt.onPlane, Box.lo, Box.hi, Box.region, mem_prod, mem_Icc, o1, o2, o3, h1, h2, h3, h4, le_refl,
        and_self]
  have := point_hasFlux hs m _ (outwardFlux_point_outside hB h)
  rwa [mul_zero] at this

example : exBox.Ordered ∧ ((0, 0.5, -1) : Pt) ∈ exBox.inside ∧ ((1, 1, 3) : Pt) ∉ exBox.region := by
  refine ⟨exBox_ordered, ?_, ?_⟩ <;> norm_num [exBox, Box.inside, Box.region]

/-! ## C65 -/

/-- Gauss's law for a prism: the outward flux of the acceleration returned by `choclo.prism` through
the surface of any box is `-4 pi G` times the mass of the part of the prism that lies in the box.
The surface may cut through the prism, share faces, edges or vertices with it, and either may be flat. -/
theorem C65_gauss (hB : B.Ordered) (hP : P.Ordered) (ρ : ℝ) :
    HasOutwardFlux (fun a p => onPrism (A := Exact) (prismGravity a.acc) p P ρ) B
      (-(4 * π * 6.6743e-11 * (ρ * volume.real (P.region ∩ B.region)))) := by
  refine ⟨fun a p => Gc * ρ * Vc a.acc p P, fun a p _ => acc_returns a p P ρ,
    fun a => ⟨(integrableOn_Vacc_face hB hP a _).const_mul _, (integrableOn_Vacc_face hB hP a _).const_mul _⟩, ?_⟩
  rw [outwardFlux_mul, outwardFlux_prism hB hP, Gc]
  ring

/-- In particular a box that contains the prism sees the whole mass, density times volume. -/
theorem C65_contained (hB : B.Ordered) (hP : P.Ordered) (h : P.region ⊆ B.region) (ρ : ℝ) :
    HasOutwardFlux (fun a p => onPrism (A := Exact) (prismGravity a.acc) p P ρ) B
      (-(4 * π * 6.6743e-11 * (ρ * ((P.east - P.west) * (P.north - P.south) * (P.top - P.bottom))))) := by
  have := C65_gauss hB hP ρ
  rwa [inter_eq_self_of_subset_left h, volume_region hP] at this

/-- ... and a box that does not meet the prism sees none. -/
theorem C65_disjoint (hB : B.Ordered) (hP : P.Ordered) (h : Disjoint P.region B.region) (ρ : ℝ) :
    HasOutwardFlux (fun a p => onPrism (A := Exact) (prismGravity a.acc) p P ρ) B 0 := by
  have := C65_gauss hB hP ρ
  rwa [h.inter_eq, measureReal_empty, mul_zero, mul_zero, neg_zero] at this

/-- the box may be the prism itself -/
example : exBox.Ordered ∧ exBox.region ⊆ exBox.region := ⟨exBox_ordered, subset_rfl⟩

/-! ## C66 -/

/-- The flux of every row of the gravity tensor of a point mass through a closed surface that does
not pass through the mass is zero (whether it encloses the mass or not). -/
theorem C66_point_tensor (hB : B.Ordered) (b : Axis) (q : Pt) (h : q ∉ B.surface) (m : ℝ) :
    HasOutwardFlux (fun a p => onPair (A := Exact) (pointGravity (tensor a b)) p q m) B 0 := by
  have lo := fun a => integrableOn_kpp_face (kern2 a b) (fun hq => h (face_lo_subset B a hq))
  have hi := fun a => integrableOn_kpp_face (kern2 a b) (fun hq => h (face_hi_subset B a hq))
  refine ⟨fun a p => Gc * m * kpp (kern2 a b) p q, fun a p hp => ?_,
    fun a => ⟨(lo a).const_mul _, (hi a).const_mul _⟩, ?_⟩
  · have e : kern2 a b = (tensor a b).toK := by cases a <;> cases b <;> rfl
    simp only [e]
    exact Ex.pointGravity_fin _ (ne_of_surface h hp) m
  · rw [outwardFlux_mul, outwardFlux_kern2 hB h, mul_zero]

/-- No magnetic monopoles: the flux of the field returned by `choclo.dipole` through a closed surface
that does not pass through the dipole is zero (whether it encloses the dipole or not). -/
theorem C66_dipole (hB : B.Ordered) (q : Pt) (h : q ∉ B.surface) (m : Vec) :
    HasOutwardFlux (fun a p => onPair (A := Exact) (dipoleMagnetic a) p q m.e m.n m.u) B 0 := by
  have lo := fun a b => integrableOn_kpp_face (kern2 a b) (fun hq => h (face_lo_subset B a hq))
  have hi := fun a b => integrableOn_kpp_face (kern2 a b) (fun hq => h (face_hi_subset B a hq))
  refine ⟨fun a p => mu0 / 4 / π * (kpp (kern2 a .e) p q * m.e + kpp (kern2 a .n) p q * m.n
      + kpp (kern2 a .u) p q * m.u), fun a p hp => dipole_fin a (ne_of_surface h hp) m, fun a => ⟨?_, ?_⟩, ?_⟩
  · exact ((((lo a .e).mul_const _).add ((lo a .n).mul_const _)).add ((lo a .u).mul_const _)).const_mul _
  · exact ((((hi a .e).mul_const _).add ((hi a .n).mul_const _)).add ((hi a .u).mul_const _)).const_mul _
  · rw [outwardFlux_mul, outwardFlux_lin3 (F := fun a p => kpp (kern2 a .e) p q)
      (G := fun a p => kpp (kern2 a .n) p q) (H := fun a p => kpp (kern2 a .u) p q) _ _ _
      (fun a => ⟨lo a _, hi a _⟩) (fun a => ⟨lo a _, hi a _⟩) (fun a => ⟨lo a _, hi a _⟩),
      outwardFlux_kern2 hB h, outwardFlux_kern2 hB h, outwardFlux_kern2 hB h]
    ring

theorem surface_face_lo (h : Disjoint B.surface P.region) (a : Axis) :
    ∀ q ∈ P.region, q ∉ B.face a (B.lo a) := fun _ hq hf =>
  Set.disjoint_left.1 h (face_lo_subset B a hf) hq

theorem surface_face_hi (h : Disjoint B.surface P.region) (a : Axis) :
    ∀ q ∈ P.region, q ∉ B.face a (B.hi a) := fun _ hq hf =>
  Set.disjoint_left.1 h (face_hi_subset B a hf) hq

/-- The flux of every row of the gravity tensor of a prism through a closed surface that does not
meet the prism is zero (whether it encloses the prism or not). -/
theorem C66_prism_tensor (hB : B.Ordered) (hP : P.Ordered) (h : Disjoint B.surface P.region) (b : Axis) (ρ : ℝ) :
    HasOutwardFlux (fun a p => onPrism (A := Exact) (prismGravity (tensor a b)) p P ρ) B 0 := by
  have lo := fun a => integrableOn_Vtensor_face hP a b (surface_face_lo h a)
  have hi := fun a => integrableOn_Vtensor_face hP a b (surface_face_hi h a)
  refine ⟨fun a p => Gc * ρ * Vc (tensor a b) p P, fun a p hp =>
    Ex.gravity_returns hP (exterior_singular hP (fun hr => Set.disjoint_left.1 h hp hr) _) ρ,
    fun a => ⟨(lo a).const_mul _, (hi a).const_mul _⟩, ?_⟩
  rw [outwardFlux_mul, outwardFlux_Vtensor hB hP h, mul_zero]

/-- No magnetic monopoles: the flux of the field returned by `choclo.prism` through a closed surface
that does not meet the prism is zero (whether it encloses the prism or not). -/
theorem C66_prism (hB : B.Ordered) (hP : P.Ordered) (h : Disjoint B.surface P.region) (M : Vec) :
    HasOutwardFlux (fun a p => onPrism (A := Exact) (prismMagnetic a.field) p P M.e M.n M.u) B 0 := by
  have lo := fun a b => integrableOn_Vtensor_face hP a b (surface_face_lo h a)
  have hi := fun a b => integrableOn_Vtensor_face hP a b (surface_face_hi h a)
  have e : ∀ a p, Bc a.field p P M.e M.n M.u = Vc (tensor a .e) p P * M.e + Vc (tensor a .n) p P * M.n
      + Vc (tensor a .u) p P * M.u := fun a p => by rw [Bc_field]; ring
  refine ⟨fun a p => mu0 / 4 / π * (Vc (tensor a .e) p P * M.e + Vc (tensor a .n) p P * M.n
      + Vc (tensor a .u) p P * M.u), fun a p hp => ?_, fun a => ⟨?_, ?_⟩, ?_⟩
  · have hx : p ∉ P.region := fun hr => Set.disjoint_left.1 h hp hr
    simp only [← e]
    exact Ex.magnetic_returns hP (exterior_edges hP hx) (fun h' => hx (inside_subset_region h')) _ _ _
  · exact ((((lo a .e).mul_const _).add ((lo a .n).mul_const _)).add ((lo a .u).mul_const _)).const_mul _
  · exact ((((hi a .e).mul_const _).add ((hi a .n).mul_const _)).add ((hi a .u).mul_const _)).const_mul _
  · rw [outwardFlux_mul, outwardFlux_lin3 (F := fun a p => Vc (tensor a .e) p P)
      (G := fun a p => Vc (tensor a .n) p P) (H := fun a p => Vc (tensor a .u) p P) _ _ _
      (fun a => ⟨lo a _, hi a _⟩) (fun a => ⟨lo a _, hi a _⟩) (fun a => ⟨lo a _, hi a _⟩),
      outwardFlux_Vtensor hB hP h, outwardFlux_Vtensor hB hP h, outwardFlux_Vtensor hB hP h]
    ring

/-- a box around the example prism -/
example : ∃ B : Box, B.Ordered ∧ Disjoint B.surface exBox.region ∧ exBox.region ⊆ B.inside := by
  refine ⟨⟨-3, 3, -3, 3, -5, 3⟩, ⟨by norm_num, by norm_num, by norm_num⟩, ?_, ?_⟩
  · rw [Set.disjoint_left]
    rintro p ⟨a, s, hs, he⟩ ⟨⟨h1, h2⟩, ⟨h3, h4⟩, h5, h6⟩
    rcases he with he | he <;> cases a <;> subst he <;>
      simp only [Pt.onPlane, Box.lo, Box.hi, exBox] at h1 h2 h3 h4 h5 h6 <;> linarith
  · rintro p ⟨⟨h1, h2⟩, ⟨h3, h4⟩, h5, h6⟩
    simp only [exBox] at h1 h2 h3 h4 h5 h6
    exact ⟨⟨by linarith, by linarith⟩, ⟨by linarith, by linarith⟩, by simp only; linarith, by simp only; linarith⟩

end Choclo
