import Verif.Lemmas.HalfSpace2
import Verif.Props.Uniqueness

/-! # C134: upward continuation

`UpwardContinues g a t` (Spec/HalfSpace.lean): the values of `g` on the plane `coordinate a = t`,
integrated against the weight `height / (2 π distance³)`, give its values everywhere above the plane. -/

namespace Choclo

open Real Set MeasureTheory Filter Topology

variable {P Q : Box} {a : Axis} {t : ℝ}

/-! ## C134 -/

/-- Every component of gravity of a point source below the plane. -/
theorem C134_point (c : GComp) {q : Pt} (h : q.coord a < t) (m : ℝ) :
    ∃ g : Pt → ℝ, (∀ p : Pt, t ≤ p.coord a → Returns (onPair (A := Exact) (pointGravity c) p q m) (g p)) ∧
      UpwardContinues g a t :=
  ⟨fun p => Gc * m * kpp c.toK p q,
    fun p hp => Ex.pointGravity_fin c (fun e => by rw [e] at hp; linarith) m,
    (((sources_point h).upRep c.toK).const_mul (Gc * m)).continues⟩

/-- Every kernel of a point source below the plane. -/
theorem C134_kernel (c : KComp) {q : Pt} (h : q.coord a < t) :
    ∃ k : Pt → ℝ, (∀ p : Pt, t ≤ p.coord a → Returns (callKernel (A := Exact) c p q) (k p)) ∧
      UpwardContinues k a t :=
  ⟨fun p => kpp c p q, fun p hp => Ex.callKernel_fin c (fun e => by rw [e] at hp; linarith),
    ((sources_point h).upRep c).continues⟩

/-- Every component of gravity of a prism below the plane; for the potential and the acceleration, the
prism may reach up to the plane. -/
theorem C134_prism (hP : P.Ordered) (c : GComp) (h : P.hi a < t ∨ c.letters ≤ 1 ∧ P.hi a ≤ t) (ρ : ℝ) :
    ∃ g : Pt → ℝ, (∀ p : Pt, t ≤ p.coord a → Returns (onPrism (A := Exact) (prismGravity c) p P ρ) (g p)) ∧
      UpwardContinues g a t := by
  refine ⟨fun p => Gc * ρ * Vc c p P, fun p hp => ?_, ?_⟩
  · rcases h with h | ⟨hc, -⟩
    · exact Ex.gravity_returns hP (exterior_singular hP (above_off_region h hp) c) ρ
    · refine Ex.gravity_returns hP ?_ ρ
      cases c <;> first | exact absurd hc (by decide) | exact fun hm => hm
  · rcases h with h | ⟨hc, h⟩
    · exact ((((sources_prism hP h).upRep c.toK).congr
        fun p hp => (Vc_outside hP c (above_off_region h hp)).symm).const_mul (Gc * ρ)).continues
    · exact ((upRep_low hP h hc).const_mul (Gc * ρ)).continues

/-- Every component of the field of a dipole below the plane. -/
theorem C134_dipole (i : Axis) {q : Pt} (h : q.coord a < t) (m : Pt) :
    ∃ B : Pt → ℝ,
      (∀ p : Pt, t ≤ p.coord a → Returns (onPair (A := Exact) (dipoleMagnetic i) p q m.e m.n m.u) (B p)) ∧
      UpwardContinues B a t := by
  refine ⟨fun p => Bd i p q m, fun p hp => dipole_fin i (fun e => by rw [e] at hp; linarith) m, ?_⟩
  have u := fun b => (sources_point h).upRep (kern2 i b)
  refine (((((u .e).const_mul m.e).add ((u .n).const_mul m.n)).add ((u .u).const_mul m.u)).const_mul
    (mu0 / 4 / π)).congr (fun p _ => ?_) |>.continues
  unfold Bd kpp
  ring

/-- Every component of the magnetic field, and of its gradient, of a prism below the plane. -/
theorem C134_magnetic (hP : P.Ordered) (c : MComp) (h : P.hi a < t) (M : Vec) :
    ∃ B : Pt → ℝ,
      (∀ p : Pt, t ≤ p.coord a → Returns (onPrism (A := Exact) (prismMagnetic c) p P M.e M.n M.u) (B p)) ∧
      UpwardContinues B a t := by
  obtain ⟨k1, k2, k3, hk⟩ := Bc_outside hP c
  refine ⟨fun p => mu0 / 4 / π * Bc c p P M.e M.n M.u, fun p hp => ?_, ?_⟩
  · have hx := above_off_region h hp
    exact Ex.magnetic_returns hP (exterior_edges hP hx) (fun h' => hx (inside_subset_region h')) M.e M.n M.u
  · have u := fun k => (sources_prism hP h).upRep k
    exact ((((((u k1).const_mul M.e).add ((u k2).const_mul M.n)).add ((u k3).const_mul M.u)).congr
      fun p hp => (hk M (above_off_region h hp)).symm).const_mul (mu0 / 4 / π)).continues

/-- The weights are an average: none is negative, and they integrate to one. -/
theorem C134_weights {p : Pt} (h : t < p.coord a) :
    (∀ s, 0 ≤ upwardWeight a t p s) ∧ Integrable (upwardWeight a t p) ∧ ∫ s, upwardWeight a t p s = 1 :=
  ⟨weight_nonneg h, weight_integral h⟩

/-- **Upward continuation does not amplify errors.**  If `g` continues upward from the plane and the
data `d` differ from it by at most `ε` on the plane, then the data continued upward differ from it by
at most `ε` at every point above. -/
theorem C134_error {g : Pt → ℝ} (hg : UpwardContinues g a t) {d : ℝ × ℝ → ℝ} (hd : Measurable d) {ε : ℝ}
    (he : ∀ s, |d s - g (Pt.onPlane a t s)| ≤ ε) {p : Pt} (hp : t < p.coord a) :
    Integrable (fun s => d s * upwardWeight a t p s) ∧ |(∫ s, d s * upwardWeight a t p s) - g p| ≤ ε := by
  obtain ⟨i, e⟩ := hg p hp
  obtain ⟨w1, w2⟩ := weight_integral hp
  have b : ∀ s, |d s * upwardWeight a t p s - g (Pt.onPlane a t s) * upwardWeight a t p s| ≤ ε * upwardWeight a t p s := fun s => by
    rw [← sub_mul, abs_mul, abs_of_nonneg (weight_nonneg hp s)]
    exact mul_le_mul_of_nonneg_right (he s) (weight_nonneg hp s)
  have m : AEStronglyMeasurable (fun s => d s * upwardWeight a t p s) :=
    hd.aestronglyMeasurable.mul w1.aestronglyMeasurable
  have i' : Integrable (fun s => d s * upwardWeight a t p s - g (Pt.onPlane a t s) * upwardWeight a t p s) :=
    (w1.const_mul ε).mono' (m.sub i.aestronglyMeasurable) (Eventually.of_forall b)
  have id : Integrable (fun s => d s * upwardWeight a t p s) := by
    refine (i'.add i).congr (Eventually.of_forall fun s => ?_)
    simp
  refine ⟨id, ?_⟩
  rw [← e, ← integral_sub id i]
  refine (abs_integral_le_integral_abs).trans ((integral_mono i'.abs (w1.const_mul ε) b).trans ?_)
  rw [integral_const_mul, w2, mul_one]

/-- **Nothing above is larger than on the plane.**  What continues upward from the plane, and is at most
`B` on it, is at most `B` everywhere above it. -/
theorem C134_largest {g : Pt → ℝ} (hg : UpwardContinues g a t) {B : ℝ} (hB : ∀ s, g (Pt.onPlane a t s) ≤ B)
    {p : Pt} (hp : t < p.coord a) : g p ≤ B := by
  obtain ⟨i, e⟩ := hg p hp
  obtain ⟨w1, w2⟩ := weight_integral hp
  rw [← e]
  refine (integral_mono i (w1.const_mul B) fun s => mul_le_mul_of_nonneg_right (hB s) (weight_nonneg hp s)).trans ?_
  rw [integral_const_mul, w2, mul_one]

theorem lineR_set (p d : Pt) (a : Axis) (t s : ℝ) : (lineR p d s).set a t = lineR (p.set a t) (d.set a 0) s := by
  cases a <;> simp [lineR, Pt.set]

theorem plane_continuation {Ω Ω' : Set Pt} {f g : Pt → ℝ} (hf : LineAnalytic f Ω) (hg : LineAnalytic g Ω')
    (hΩ : ∀ p : Pt, p.coord a = t → p ∈ Ω) (hΩ' : ∀ p : Pt, p.coord a = t → p ∈ Ω') {W : Set (ℝ × ℝ)} (hW : IsOpen W)
    (hne : W.Nonempty) (h : ∀ s ∈ W, f (Pt.onPlane a t s) = g (Pt.onPlane a t s)) :
    ∀ s, f (Pt.onPlane a t s) = g (Pt.onPlane a t s) := by
  have sc : ∀ p : Pt, (p.set a t).coord a = t := fun p => by cases a <;> rfl
  have an : ∀ {F : Pt → ℝ} {O : Set Pt}, LineAnalytic F O → (∀ p : Pt, p.coord a = t → p ∈ O) →
      LineAnalytic (fun p => F (p.set a t)) univ := fun {F O} hF hO p d x _ => by
    simp only [lineR_set]
    refine hF _ _ _ (hO _ ?_)
    rw [← lineR_set]; exact sc _
  have proj : ∃ r : Pt → ℝ × ℝ, Continuous r ∧ (∀ p, Pt.onPlane a t (r p) = p.set a t) ∧ ∀ s, r (Pt.onPlane a t s) = s := by
    cases a
    · exact ⟨fun p => (p.2.1, p.2.2), by fun_prop, fun _ => rfl, fun _ => rfl⟩
    · exact ⟨fun p => (p.1, p.2.2), by fun_prop, fun _ => rfl, fun _ => rfl⟩
    · exact ⟨fun p => (p.1, p.2.1), by fun_prop, fun _ => rfl, fun _ => rfl⟩
  obtain ⟨r, cr, hr, hr'⟩ := proj
  obtain ⟨s0, hs0⟩ := hne
  have key := unique_continuation isOpen_univ isPreconnected_univ (an hf hΩ) (an hg hΩ') (hW.preimage cr)
    ⟨Pt.onPlane a t s0, by simp [hr', hs0]⟩ (fun p hp => by
      have := h (r p) hp.1
      rwa [hr] at this)
  intro s
  have := key (Pt.onPlane a t s) (mem_univ _)
  have e : (Pt.onPlane a t s).set a t = Pt.onPlane a t s := by cases a <;> rfl
  simpa only [e] using this

/-- two fields that continue upward and agree on the plane agree above it -/
theorem UpwardContinues.eq {f g : Pt → ℝ} (hf : UpwardContinues f a t) (hg : UpwardContinues g a t)
    (h : ∀ s, f (Pt.onPlane a t s) = g (Pt.onPlane a t s)) {p : Pt} (hp : t < p.coord a) : f p = g p := by
  rw [← (hf p hp).2, ← (hg p hp).2]
  simp only [h]

/-- **One component on one patch of one plane determines a prism.**  Two proper prisms below a plane,
of non-zero density, for which a single gravity component agrees on an open patch of the plane are the
same prism with the same density. -/
theorem C134_unique (hP : P.Proper) (hQ : Q.Proper) (h1 : P.hi a < t) (h2 : Q.hi a < t) (c : GComp) {ρ σ : ℝ}
    (hρ : ρ ≠ 0) (hσ : σ ≠ 0) {W : Set (ℝ × ℝ)} (hW : IsOpen W) (hne : W.Nonempty)
    (h : ∀ s ∈ W, onPrism (A := Exact) (prismGravity c) (Pt.onPlane a t s) P ρ
      = onPrism (A := Exact) (prismGravity c) (Pt.onPlane a t s) Q σ) :
    P = Q ∧ ρ = σ := by
  have hPo := hP.ordered
  have hQo := hQ.ordered
  have r1 := fun {p : Pt} (hp : t ≤ p.coord a) =>
    Ex.gravity_returns hPo (exterior_singular hPo (above_off_region h1 hp) c) ρ
  have r2 := fun {p : Pt} (hp : t ≤ p.coord a) =>
    Ex.gravity_returns hQo (exterior_singular hQo (above_off_region h2 hp) c) σ
  have lin : ∀ {P : Box} (_ : P.Ordered) (k : ℝ), LineAnalytic (fun p => k * Vc c p P) P.regionᶜ := fun hP k p d x hx =>
    analyticAt_const.mul (lineAnalytic_Vc hP c p d x hx)
  have up : ∀ {P : Box} (_ : P.Ordered) (_ : P.hi a < t) (k : ℝ), UpwardContinues (fun p => k * Vc c p P) a t :=
    fun hP h k => ((((sources_prism hP h).upRep c.toK).congr
        fun p hp => (Vc_outside hP c (above_off_region h hp)).symm).const_mul k).continues
  have on : ∀ s, Gc * ρ * Vc c (Pt.onPlane a t s) P = Gc * σ * Vc c (Pt.onPlane a t s) Q :=
    plane_continuation (lin hPo _) (lin hQo _) (fun p hp => above_off_region h1 hp.ge)
      (fun p hp => above_off_region h2 hp.ge) hW hne fun s hs => by
        have k1 := r1 (onPlane_coord a t s).ge
        rw [h s hs] at k1
        exact k1.inj (r2 (onPlane_coord a t s).ge)
  refine C116_gravity_unique hP hQ c hρ hσ {p | t < p.coord a} (isOpen_above a t) ?_ fun p hp _ _ => ?_
  · have hx : t < (Pt.onPlane a (t + 1) (0, 0)).coord a := by rw [onPlane_coord]; linarith
    exact ⟨_, hx, above_off_region h1 hx.le, above_off_region h2 hx.le⟩
  · have hp : t < p.coord a := hp
    have e := (up hPo h1 (Gc * ρ)).eq (up hQo h2 (Gc * σ)) on hp
    have k1 := r1 hp.le
    rw [e] at k1
    exact k1.trans (r2 hp.le).symm

/-- The same for the magnetic field: its three components on an open patch of a plane above two proper
prisms determine the prism and its magnetization. -/
theorem C134_magnetic_unique (hP : P.Proper) (hQ : Q.Proper) (h1 : P.hi a < t) (h2 : Q.hi a < t) {M N : Vec}
    (hM : M ≠ (0, 0, 0)) (hN : N ≠ (0, 0, 0)) {W : Set (ℝ × ℝ)} (hW : IsOpen W) (hne : W.Nonempty)
    (h : ∀ i : Axis, ∀ s ∈ W, onPrism (A := Exact) (prismMagnetic i.field) (Pt.onPlane a t s) P M.e M.n M.u
      = onPrism (A := Exact) (prismMagnetic i.field) (Pt.onPlane a t s) Q N.e N.n N.u) :
    P = Q ∧ M = N := by
  have hPo := hP.ordered
  have hQo := hQ.ordered
  have r1 := fun (i : Axis) {p : Pt} (hp : t ≤ p.coord a) =>
    Ex.magnetic_returns hPo (c := i.field) (exterior_edges hPo (above_off_region h1 hp))
      (fun h' => above_off_region h1 hp (inside_subset_region h')) M.e M.n M.u
  have r2 := fun (i : Axis) {p : Pt} (hp : t ≤ p.coord a) =>
    Ex.magnetic_returns hQo (c := i.field) (exterior_edges hQo (above_off_region h2 hp))
      (fun h' => above_off_region h2 hp (inside_subset_region h')) N.e N.n N.u
  have lin : ∀ {P : Box} (_ : P.Ordered) (i : Axis) (M : Vec),
      LineAnalytic (fun p => mu0 / 4 / π * Bc i.field p P M.e M.n M.u) P.regionᶜ := fun hP i M p d x hx =>
    analyticAt_const.mul (lineAnalytic_Bc hP i.field M p d x hx)
  have up : ∀ {P : Box} (_ : P.Ordered) (_ : P.hi a < t) (i : Axis) (M : Vec),
      UpwardContinues (fun p => mu0 / 4 / π * Bc i.field p P M.e M.n M.u) a t := fun hP h i M => by
    obtain ⟨k1, k2, k3, hk⟩ := Bc_outside hP i.field
    have u := fun k => (sources_prism hP h).upRep k
    exact ((((((u k1).const_mul M.e).add ((u k2).const_mul M.n)).add ((u k3).const_mul M.u)).congr
      fun p hp => (hk M (above_off_region h hp)).symm).const_mul (mu0 / 4 / π)).continues
  have on : ∀ i s, mu0 / 4 / π * Bc (Axis.field i) (Pt.onPlane a t s) P M.e M.n M.u
      = mu0 / 4 / π * Bc i.field (Pt.onPlane a t s) Q N.e N.n N.u := fun i =>
    plane_continuation (lin hPo i M) (lin hQo i N) (fun p hp => above_off_region h1 hp.ge)
      (fun p hp => above_off_region h2 hp.ge) hW hne fun s hs => by
        have k1 := r1 i (onPlane_coord a t s).ge
        rw [h i s hs] at k1
        exact k1.inj (r2 i (onPlane_coord a t s).ge)
  refine C116_magnetic_unique hP hQ hM hN {p | t < p.coord a} (isOpen_above a t) ?_ fun i p hp _ _ => ?_
  · have hx : t < (Pt.onPlane a (t + 1) (0, 0)).coord a := by rw [onPlane_coord]; linarith
    exact ⟨_, hx, above_off_region h1 hx.le, above_off_region h2 hx.le⟩
  · have hp : t < p.coord a := hp
    have e := (up hPo h1 i M).eq (up hQo h2 i N) (on i) hp
    have k1 := r1 i hp.le
    rw [e] at k1
    exact k1.trans (r2 i hp.le).symm

/-- non-vacuity: the example prism is below `upward = 1` and touches `upward = 0`; the prism is proper;
there are points above; an open patch -/
example : exBox.Proper ∧ exBox.hi .u < 1 ∧ (GComp.letters .u ≤ 1 ∧ exBox.hi .u ≤ 0) ∧ (1 : ℝ) < Pt.coord (0, 0, 2) .u ∧
    IsOpen (Ioo (0 : ℝ) 1 ×ˢ Ioo (0 : ℝ) 1) ∧ (Ioo (0 : ℝ) 1 ×ˢ Ioo (0 : ℝ) 1).Nonempty ∧
    Pt.coord (0, 0, -3) .u < 0 := by
  refine ⟨exBox_proper, ?_, ⟨by decide, ?_⟩, ?_, isOpen_Ioo.prod isOpen_Ioo, ⟨(1 / 2, 1 / 2), ?_⟩, ?_⟩ <;>
    norm_num [exBox, Box.hi, Pt.coord, Pt.u]

/-- non-vacuity: the gravity of the example prism continues upward from `upward = 0`, and its value at
`upward = 3` is an average of those on the plane -/
example : ∃ g : Pt → ℝ, Returns (onPrism (A := Exact) (prismGravity .u) (0, 0, 3) exBox (1 : ℝ)) (g (0, 0, 3)) ∧
    g (0, 0, 3) = ∫ s, g (Pt.onPlane .u 0 s) * upwardWeight .u 0 (0, 0, 3) s := by
  obtain ⟨g, h1, h2⟩ := C134_prism (a := .u) (t := 0) exBox_ordered .u (Or.inr ⟨by decide, by norm_num [exBox, Box.hi]⟩) 1
  exact ⟨g, h1 _ (by norm_num [Pt.coord, Pt.u]), (h2 _ (by norm_num [Pt.coord, Pt.u])).2.symm⟩

end Choclo
