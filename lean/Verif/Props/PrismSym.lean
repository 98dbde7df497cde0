import Verif.Lemmas.Vc2

/-!
# Algebraic laws of the prism functions in exact arithmetic:
C29-C34, C37, C40, C42, C44-C46
-/

namespace Choclo

open Real Classical

variable {P : Box}

/-- a prism and points used as examples below -/
def exBox : Box := ⟨-1, 1, -1, 1, -2, 0⟩
theorem exBox_ordered : exBox.Ordered := by norm_num [Box.Ordered, exBox]
theorem exBox_proper : exBox.Proper := by norm_num [Box.Proper, exBox]

/-! ## C29 linearity in density -/

/-- Additivity. -/
theorem C29_add (hP : P.Ordered) (c : GComp) (p : Pt) (ρ₁ ρ₂ v₁ v₂ : ℝ)
    (h₁ : Returns (onPrism (A := Exact) (prismGravity c) p P ρ₁) v₁)
    (h₂ : Returns (onPrism (A := Exact) (prismGravity c) p P ρ₂) v₂) :
    Returns (onPrism (A := Exact) (prismGravity c) p P (ρ₁ + ρ₂ : ℝ)) (v₁ + v₂) := by
  by_cases h : p ∈ P.singular c
  · have := Ex.gravity_returns_nan hP h ρ₁
    unfold Returns at h₁; unfold ReturnsNaN at this
    rw [this] at h₁
    exact absurd (Except.ok.inj h₁).symm (Ex.fin_ne_nan _)
  · rw [h₁.inj (Ex.gravity_returns hP h ρ₁), h₂.inj (Ex.gravity_returns hP h ρ₂)]
    have := Ex.gravity_returns hP h (ρ₁ + ρ₂)
    rwa [show Gc * (ρ₁ + ρ₂) * Vc c p P = Gc * ρ₁ * Vc c p P + Gc * ρ₂ * Vc c p P by ring] at this

/-- Homogeneity, and the NaN set does not depend on the density: the result for `k * ρ` is `k` times
the result for `ρ` (NaN for NaN). -/
theorem C29_smul (hP : P.Ordered) (c : GComp) (p : Pt) (k ρ : ℝ) :
    onPrism (A := Exact) (prismGravity c) p P (k * ρ : ℝ) =
      times k (onPrism (A := Exact) (prismGravity c) p P ρ) := by
  rw [Ex.gravity_eval hP, Ex.gravity_eval hP]
  split_ifs
  · rfl
  · rw [times_fin]; congr 2; ring

example : Returns (onPrism (A := Exact) (prismGravity .u) (0, 0, 1) exBox (3 : ℝ))
    (Gc * 3 * Vc .u (0, 0, 1) exBox) :=
  Ex.gravity_returns exBox_ordered (by simp [Box.singular]) 3

/-! ## C30 cutting a prism -/

theorem Box.Ordered.below (hP : P.Ordered) (a : Axis) {m : ℝ} (hm : P.lo a ≤ m ∧ m ≤ P.hi a) :
    (P.below m a).Ordered := by
  obtain ⟨h1, h2, h3⟩ := hP
  cases a
  · exact ⟨hm.1, h2, h3⟩
  · exact ⟨h1, hm.1, h3⟩
  · exact ⟨h1, h2, hm.1⟩
theorem Box.Ordered.above (hP : P.Ordered) (a : Axis) {m : ℝ} (hm : P.lo a ≤ m ∧ m ≤ P.hi a) :
    (P.above m a).Ordered := by
  obtain ⟨h1, h2, h3⟩ := hP
  cases a
  · exact ⟨hm.2, h2, h3⟩
  · exact ⟨h1, hm.2, h3⟩
  · exact ⟨h1, h2, hm.2⟩

/-- Cut the prism by the plane `coordinate a = m`.  Wherever the component is defined for the three
prisms the two parts add up to the whole, plus `4 π G ρ` if the point lies on the interface and the
component is the diagonal one normal to the cut. -/
theorem C30_cut (hP : P.Ordered) (c : GComp) (a : Axis) {m : ℝ} (hm : P.lo a ≤ m ∧ m ≤ P.hi a)
    (p : Pt) (ρ : ℝ) (h : p ∉ P.singular c) (h1 : p ∉ (P.below m a).singular c)
    (h2 : p ∉ (P.above m a).singular c) :
    ∃ v v₁ v₂, Returns (onPrism (A := Exact) (prismGravity c) p P ρ) v ∧
      Returns (onPrism (A := Exact) (prismGravity c) p (P.below m a) ρ) v₁ ∧
      Returns (onPrism (A := Exact) (prismGravity c) p (P.above m a) ρ) v₂ ∧
      v₁ + v₂ = v + if c = a.diag ∧ p ∈ (P.below m a).faceHi a then 4 * π * Gc * ρ else 0 := by
  refine ⟨_, _, _, Ex.gravity_returns hP h ρ, Ex.gravity_returns (hP.below a hm) h1 ρ,
    Ex.gravity_returns (hP.above a hm) h2 ρ, ?_⟩
  have := Vc_cut c a hm h1
  split_ifs with hi
  · rw [if_pos hi] at this; linear_combination (Gc * ρ) * this
  · rw [if_neg hi] at this; linear_combination (Gc * ρ) * this

/-- For potential and acceleration there is no exception at all. -/
theorem C30_cut_field (hP : P.Ordered) (c : GComp) (hc : c.letters ≤ 1) (a : Axis) {m : ℝ}
    (hm : P.lo a ≤ m ∧ m ≤ P.hi a) (p : Pt) (ρ : ℝ) :
    ∃ v₁ v₂, Returns (onPrism (A := Exact) (prismGravity c) p P ρ) (v₁ + v₂) ∧
      Returns (onPrism (A := Exact) (prismGravity c) p (P.below m a) ρ) v₁ ∧
      Returns (onPrism (A := Exact) (prismGravity c) p (P.above m a) ρ) v₂ := by
  have hs : ∀ Q : Box, p ∉ Q.singular c := by
    intro Q; cases c <;> simp [GComp.letters, GComp.index] at hc <;> simp [Box.singular]
  obtain ⟨v, v₁, v₂, h, h1, h2, h3⟩ := C30_cut hP c a hm p ρ (hs _) (hs _) (hs _)
  rw [if_neg, add_zero] at h3
  · exact ⟨v₁, v₂, by rwa [h3], h1, h2⟩
  · rintro ⟨h, -⟩
    rw [h] at hc
    cases a <;> simp [GComp.letters, GComp.index, Axis.diag] at hc

theorem below_singular {p : Pt} {c : GComp} {a : Axis} {m : ℝ} (hm : P.lo a ≤ m ∧ m ≤ P.hi a)
    (hp : p.coord a ≠ m) (h : p ∈ (P.below m a).singular c) : p ∈ P.singular c := by
  cases a <;> cases c <;>
    simp only [Box.singular, Box.edgesE, Box.edgesN, Box.edgesU, Box.below, Box.lo, Box.hi, Pt.coord,
      Set.mem_union, Set.mem_ofPred_eq, Set.mem_Icc, Set.mem_empty_iff_false] at * <;>
    grind
theorem above_singular {p : Pt} {c : GComp} {a : Axis} {m : ℝ} (hm : P.lo a ≤ m ∧ m ≤ P.hi a)
    (hp : p.coord a ≠ m) (h : p ∈ (P.above m a).singular c) : p ∈ P.singular c := by
  cases a <;> cases c <;>
    simp only [Box.singular, Box.edgesE, Box.edgesN, Box.edgesU, Box.above, Box.lo, Box.hi, Pt.coord,
      Set.mem_union, Set.mem_ofPred_eq, Set.mem_Icc, Set.mem_empty_iff_false] at * <;>
    grind

/-- Off the cutting plane every component of the parts adds up to the whole wherever the whole is
defined. -/
theorem C30_cut_off_plane (hP : P.Ordered) (c : GComp) (a : Axis) {m : ℝ}
    (hm : P.lo a ≤ m ∧ m ≤ P.hi a) (p : Pt) (ρ : ℝ) (h : p ∉ P.singular c) (hp : p.coord a ≠ m) :
    ∃ v₁ v₂, Returns (onPrism (A := Exact) (prismGravity c) p P ρ) (v₁ + v₂) ∧
      Returns (onPrism (A := Exact) (prismGravity c) p (P.below m a) ρ) v₁ ∧
      Returns (onPrism (A := Exact) (prismGravity c) p (P.above m a) ρ) v₂ := by
  obtain ⟨v, v₁, v₂, h0, h1, h2, h3⟩ := C30_cut hP c a hm p ρ h
    (fun h' => h (below_singular hm hp h')) (fun h' => h (above_singular hm hp h'))
  rw [if_neg, add_zero] at h3
  · exact ⟨v₁, v₂, by rwa [h3], h1, h2⟩
  · rintro ⟨-, h⟩
    apply hp
    cases a
    · exact h.1
    · exact h.2.1
    · exact h.2.2

example : exBox.lo .u ≤ -1 ∧ -1 ≤ exBox.hi .u ∧ ((0, 0, -1) : Pt) ∈ (exBox.below (-1) .u).faceHi .u ∧
    ((0, 0, -1) : Pt) ∉ exBox.singular .uu ∧ ((0, 0, -1) : Pt) ∉ (exBox.below (-1) .u).singular .uu ∧
    ((0, 0, -1) : Pt) ∉ (exBox.above (-1) .u).singular .uu := by
  norm_num [exBox, Box.lo, Box.hi, Box.below, Box.above, Box.faceHi, Box.faceTop, Box.singular,
    Box.edgesE, Box.edgesN]

/-! ## C31 translations -/

/-- Gravity: the same result (or NaN) for the translated point and prism. -/
theorem C31_gravity (hP : P.Ordered) (c : GComp) (p t : Pt) (ρ : ℝ) :
    onPrism (A := Exact) (prismGravity c) (p.shift t) (P.shift t) ρ =
      onPrism (A := Exact) (prismGravity c) p P ρ := by
  rw [gravity_transport hP (hP.shift t) ρ (singular_shift p t P c)
    (fun _ => by rw [Vc_shift, one_mul]), times_one _ (gravity_cases hP c p ρ)]

/-- Magnetics. -/
theorem C31_magnetic (hP : P.Ordered) (c : MComp) (p t : Pt) (M : Vec) :
    onPrism (A := Exact) (prismMagnetic c) (p.shift t) (P.shift t) M.e M.n M.u =
      onPrism (A := Exact) (prismMagnetic c) p P M.e M.n M.u := by
  rw [magnetic_transport hP (hP.shift t) (mag_singular_shift p t P)
    (fun _ => by rw [Bc_shift, one_mul]), times_one _ (magnetic_cases hP c p _ _ _)]

/-! ## C32 relabelling the axes -/

/-- Gravity: exchanging two axes in the data and in the name of the component changes nothing. -/
theorem C32_gravity (hP : P.Ordered) (c : GComp) (s : Swap) (p : Pt) (ρ : ℝ) :
    onPrism (A := Exact) (prismGravity (c.swap s)) (p.swap s) (P.swap s) ρ =
      onPrism (A := Exact) (prismGravity c) p P ρ := by
  rw [gravity_transport hP (hP.swap s) ρ (singular_swap p P c s)
    (fun _ => by rw [Vc_swap, one_mul]), times_one _ (gravity_cases hP c p ρ)]

/-- Magnetics, with the magnetization relabelled as well. -/
theorem C32_magnetic (hP : P.Ordered) (c : MComp) (s : Swap) (p : Pt) (M : Vec) :
    onPrism (A := Exact) (prismMagnetic (c.swap s)) (p.swap s) (P.swap s)
        (M.swap s).e (M.swap s).n (M.swap s).u =
      onPrism (A := Exact) (prismMagnetic c) p P M.e M.n M.u := by
  rw [magnetic_transport hP (hP.swap s) (by rw [edges_swap, inside_swap])
    (fun _ => by rw [Bc_swap, one_mul]), times_one _ (magnetic_cases hP c p _ _ _)]

/-- For instance: `gravity_n` is `gravity_e` with easting and northing exchanged. -/
example (hP : P.Ordered) (x y z ρ : ℝ) :
    prism.gravity_n (A := Exact) (y : ℝ) (x : ℝ) (z : ℝ) P.south P.north P.west P.east P.bottom P.top ρ =
      prism.gravity_e (A := Exact) (x : ℝ) (y : ℝ) (z : ℝ) P.west P.east P.south P.north P.bottom P.top ρ :=
  C32_gravity hP .e .en (x, y, z) ρ

/-! ## C33 mirror images (gravity) -/

/-- The mirror image of the data multiplies each component by `-1` for every occurrence of the axis in
its name (NaN stays NaN). -/
theorem C33_mirror (hP : P.Ordered) (c : GComp) (a : Axis) (p : Pt) (ρ : ℝ) :
    onPrism (A := Exact) (prismGravity c) (p.mirror a) (P.mirror a) ρ =
      times ((-1) ^ c.count a) (onPrism (A := Exact) (prismGravity c) p P ρ) :=
  gravity_transport hP (hP.mirror a) ρ (singular_mirror c a) (fun h => Vc_mirror hP c a h)

/-! ## C34 change of the unit of length -/

/-- Gravity: the result scales like `l ^ (2 - number of letters)`. -/
theorem C34_gravity (hP : P.Ordered) (c : GComp) {l : ℝ} (hl : 0 < l) (p : Pt) (ρ : ℝ) :
    onPrism (A := Exact) (prismGravity c) (p.scale l) (P.scale l) ρ =
      times (l ^ 2 / l ^ c.letters) (onPrism (A := Exact) (prismGravity c) p P ρ) := by
  apply gravity_transport hP (hP.scale hl) ρ (singular_scale hl c)
  intro h
  have := Vc_scale hl hP c h
  have hl' : l ^ c.letters ≠ 0 := pow_ne_zero _ hl.ne'
  rw [div_mul_eq_mul_div, eq_div_iff hl', this]

/-- Magnetics: the result scales like `l ^ (1 - number of letters)`. -/
theorem C34_magnetic (hP : P.Ordered) (c : MComp) {l : ℝ} (hl : 0 < l) (p : Pt) (M : Vec) :
    onPrism (A := Exact) (prismMagnetic c) (p.scale l) (P.scale l) M.e M.n M.u =
      times (l / l ^ c.letters) (onPrism (A := Exact) (prismMagnetic c) p P M.e M.n M.u) := by
  apply magnetic_transport hP (hP.scale hl) (by rw [edges_scale hl, inside_scale hl])
  intro h
  have := Bc_scale hl hP c M.e M.n M.u (p := p) (fun h' => h (Or.inl h'))
  have hl' : l ^ c.letters ≠ 0 := pow_ne_zero _ hl.ne'
  rw [div_mul_eq_mul_div, eq_div_iff hl', this]

example (l : ℝ) : l ^ 2 / l ^ GComp.letters .pot = l ^ 2 := by simp [GComp.letters, GComp.index]

/-! ## C37 prisms of zero volume -/

theorem Dv_flat {K : ℝ → ℝ → ℝ → ℝ} {p : Pt} {a : Axis} (h : P.lo a = P.hi a) : Dv K p P = 0 := by
  cases a <;> simp only [Box.lo, Box.hi] at h <;> unfold Dv D3 <;> rw [h] <;> ring

/-- Potential and acceleration vanish everywhere; a tensor component vanishes wherever it is defined
and the point is not on an east, north or top face. -/
theorem C37_zero (hP : P.Ordered) {a : Axis} (ha : P.lo a = P.hi a) (c : GComp) (p : Pt) (ρ : ℝ)
    (h : p ∉ P.singular c) (hf : c.letters ≤ 1 ∨ ∀ b, p ∉ P.faceHi b) :
    Returns (onPrism (A := Exact) (prismGravity c) p P ρ) 0 := by
  have hc : corr c p P = 0 := by
    rcases hf with hf | hf
    · cases c <;> simp [GComp.letters, GComp.index] at hf <;> rfl
    · cases c <;> simp only [corr] <;> try rfl
      · exact if_neg (hf .e)
      · exact if_neg (hf .n)
      · exact if_neg (hf .u)
  have := Ex.gravity_returns hP h ρ
  unfold Vc at this
  rwa [Dv_flat ha, hc, add_zero, mul_zero] at this

/-- Even on those faces it vanishes unless it is the diagonal component of the degenerate axis. -/
theorem C37_zero_off_normal (hP : P.Ordered) {a : Axis} (ha : P.lo a = P.hi a) (c : GComp) (p : Pt)
    (ρ : ℝ) (h : p ∉ P.singular c) (hc : c ≠ a.diag) :
    Returns (onPrism (A := Exact) (prismGravity c) p P ρ) 0 := by
  have := Ex.gravity_returns hP h ρ
  have hz : corr c p P = 0 := by
    cases a <;> cases c <;> simp only [corr, Box.lo, Box.hi, Axis.diag, ne_eq, not_true_eq_false] at * <;>
      rw [if_neg] <;> rintro ⟨h1, h2, h3⟩ <;>
      simp only [Set.mem_Ioo] at h1 h2 h3 <;> grind
  unfold Vc at this
  rwa [Dv_flat ha, hz, add_zero, mul_zero] at this

/-- Observed behaviour: on the (coinciding) faces of a prism of zero thickness the diagonal component
normal to them is `4 π G ρ`, not 0. -/
theorem C37_flat_face (hP : P.Ordered) {a : Axis} (ha : P.lo a = P.hi a) (p : Pt) (ρ : ℝ)
    (hp : p ∈ P.faceHi a) :
    Returns (onPrism (A := Exact) (prismGravity a.diag) p P ρ) (4 * π * Gc * ρ) := by
  have hs : p ∉ P.singular a.diag := by
    cases a <;> simp only [Axis.diag, Box.singular, Box.faceHi] at * <;>
      rintro (⟨h1, h2, h3⟩ | ⟨h1, h2, h3⟩) <;> obtain ⟨g1, g2, g3⟩ := hp <;>
      simp only [Set.mem_Ioo] at g1 g2 g3 <;> grind
  have := Ex.gravity_returns hP hs ρ
  unfold Vc at this
  rw [Dv_flat ha, zero_add] at this
  have hc : corr a.diag p P = 4 * π := by
    cases a <;> simp only [Axis.diag, corr] <;> exact if_pos hp
  rw [hc] at this
  rwa [show Gc * ρ * (4 * π) = 4 * π * Gc * ρ by ring] at this

example : (⟨1, 1, 0, 2, 0, 2⟩ : Box).lo .e = (⟨1, 1, 0, 2, 0, 2⟩ : Box).hi .e ∧
    ((1, 1, 1) : Pt) ∈ (⟨1, 1, 0, 2, 0, 2⟩ : Box).faceHi .e := by
  norm_num [Box.lo, Box.hi, Box.faceHi, Box.faceEast]

/-! ## C40 Poisson's relation -/

/-- Wherever the magnetic field is not NaN, so is no component of the gravity tensor, and
`G ρ B = (μ₀ / 4π) T M` with `T` the gravity gradient tensor of the same prism with density `ρ`. -/
theorem C40_poisson (hP : P.Ordered) (i : Axis) (p : Pt) (M : Vec) (ρ B : ℝ)
    (h : Returns (onPrism (A := Exact) (prismMagnetic i.field) p P M.e M.n M.u) B) :
    ∃ Te Tn Tu, Returns (onPrism (A := Exact) (prismGravity (tensor i .e)) p P ρ) Te ∧
      Returns (onPrism (A := Exact) (prismGravity (tensor i .n)) p P ρ) Tn ∧
      Returns (onPrism (A := Exact) (prismGravity (tensor i .u)) p P ρ) Tu ∧
      Gc * ρ * B = mu0 / (4 * π) * (Te * M.e + Tn * M.n + Tu * M.u) := by
  by_cases hs : p ∈ P.edges ∨ p ∈ P.inside
  · have := Ex.magnetic_returns_nan hP (c := i.field) hs M.e M.n M.u
    unfold Returns at h; unfold ReturnsNaN at this
    rw [this] at h
    exact absurd (Except.ok.inj h).symm (Ex.fin_ne_nan _)
  · rw [not_or] at hs
    rw [h.inj (Ex.magnetic_returns hP hs.1 hs.2 M.e M.n M.u)]
    refine ⟨_, _, _, Ex.gravity_returns hP (edges_singular _ hs.1) ρ,
      Ex.gravity_returns hP (edges_singular _ hs.1) ρ, Ex.gravity_returns hP (edges_singular _ hs.1) ρ, ?_⟩
    have := Real.pi_ne_zero
    cases i <;> simp only [Axis.field, tensor, Bc, Wc] <;> field_simp

/-- a point outside an edge, on the top face: the field is defined there -/
theorem exBox_top : ((0, 0, 0) : Pt) ∉ exBox.edges ∧ ((0, 0, 0) : Pt) ∉ exBox.inside := by
  norm_num [exBox, Box.edges, Box.edgesE, Box.edgesN, Box.edgesU, Box.inside]

example : Returns (onPrism (A := Exact) (prismMagnetic .u) (0, 0, 0) exBox (1 : ℝ) (2 : ℝ) (3 : ℝ))
    (mu0 / 4 / π * Bc .u (0, 0, 0) exBox 1 2 3) :=
  Ex.magnetic_returns exBox_ordered exBox_top.1 exBox_top.2 1 2 3

/-! ## C42 the gradient of B is traceless -/

/-- Wherever they are not NaN, the three diagonal gradient components add up to zero. -/
theorem C42_traceless (hP : P.Ordered) (p : Pt) (M : Vec) (h : p ∉ P.edges) (h' : p ∉ P.inside) :
    ∃ bee bnn buu,
      Returns (onPrism (A := Exact) (prismMagnetic .ee) p P M.e M.n M.u) bee ∧
      Returns (onPrism (A := Exact) (prismMagnetic .nn) p P M.e M.n M.u) bnn ∧
      Returns (onPrism (A := Exact) (prismMagnetic .uu) p P M.e M.n M.u) buu ∧
      bee + bnn + buu = 0 := by
  refine ⟨_, _, _, Ex.magnetic_returns hP h h' M.e M.n M.u, Ex.magnetic_returns hP h h' M.e M.n M.u,
    Ex.magnetic_returns hP h h' M.e M.n M.u, ?_⟩
  have hr := fun x y z hx hy hz => Ex.rad_ne_zero' (x := x) (y := y) (z := z) hP (by tauto) hx hy hz
  have e : Dv (K3 .eee) p P + Dv (K3 .enn) p P + Dv (K3 .euu) p P = 0 := by
    rw [← Dv_add, ← Dv_add]
    refine Dv_zero_of fun x y z hx hy hz => ?_
    simp only [K3]
    exact K3_trace x y z (hr x y z hx hy hz)
  have n : Dv (K3 .een) p P + Dv (K3 .nnn) p P + Dv (K3 .nuu) p P = 0 := by
    rw [← Dv_add, ← Dv_add]
    refine Dv_zero_of fun x y z hx hy hz => ?_
    simp only [K3]
    have := K3_trace y x z (by rw [rad_perm1 x y z]; exact hr x y z hx hy hz)
    rw [Kiii_symm y x z]; linarith
  have u : Dv (K3 .eeu) p P + Dv (K3 .nnu) p P + Dv (K3 .uuu) p P = 0 := by
    rw [← Dv_add, ← Dv_add]
    refine Dv_zero_of fun x y z hx hy hz => ?_
    simp only [K3]
    have := K3_trace z x y (by rw [rad_perm4 x y z]; exact hr x y z hx hy hz)
    rw [Kiii_symm z x y]; linarith
  simp only [Bc, Wc]
  linear_combination mu0 / 4 / π * (M.e * e + M.n * n + M.u * u)

/-! ## C44 linearity in the magnetization -/

/-- Additivity. -/
theorem C44_add (hP : P.Ordered) (c : MComp) (p : Pt) (M N : Vec) (v w : ℝ)
    (hM : Returns (onPrism (A := Exact) (prismMagnetic c) p P M.e M.n M.u) v)
    (hN : Returns (onPrism (A := Exact) (prismMagnetic c) p P N.e N.n N.u) w) :
    Returns (onPrism (A := Exact) (prismMagnetic c) p P
      (M.e + N.e : ℝ) (M.n + N.n : ℝ) (M.u + N.u : ℝ)) (v + w) := by
  by_cases hs : p ∈ P.edges ∨ p ∈ P.inside
  · have := Ex.magnetic_returns_nan hP (c := c) hs M.e M.n M.u
    unfold Returns at hM; unfold ReturnsNaN at this
    rw [this] at hM
    exact absurd (Except.ok.inj hM).symm (Ex.fin_ne_nan _)
  · rw [not_or] at hs
    rw [hM.inj (Ex.magnetic_returns hP hs.1 hs.2 M.e M.n M.u),
      hN.inj (Ex.magnetic_returns hP hs.1 hs.2 N.e N.n N.u)]
    have := Ex.magnetic_returns hP (c := c) hs.1 hs.2 (M.e + N.e) (M.n + N.n) (M.u + N.u)
    unfold Returns at this ⊢
    rw [this]; congr 2; unfold Bc; ring

/-- Homogeneity; NaN stays NaN. -/
theorem C44_smul (hP : P.Ordered) (c : MComp) (p : Pt) (k : ℝ) (M : Vec) :
    onPrism (A := Exact) (prismMagnetic c) p P (k * M.e : ℝ) (k * M.n : ℝ) (k * M.u : ℝ) =
      times k (onPrism (A := Exact) (prismMagnetic c) p P M.e M.n M.u) := by
  rw [Ex.magnetic_eval hP, Ex.magnetic_eval hP]
  split_ifs
  · rfl
  · rw [times_fin]; congr 2; unfold Bc; ring

/-! ## C45 cutting a magnetized prism -/

theorem Bc_cut (c : MComp) (a : Axis) {m : ℝ} (hm : P.lo a ≤ m ∧ m ≤ P.hi a)
    (p : Pt) (M : Vec) (h1 : p ∉ (P.below m a).edges) (hi : p ∉ (P.below m a).faceHi a) :
    Bc c p (P.below m a) M.e M.n M.u + Bc c p (P.above m a) M.e M.n M.u = Bc c p P M.e M.n M.u := by
  have v : ∀ d, Vc d p (P.below m a) + Vc d p (P.above m a) = Vc d p P := by
    intro d
    rw [Vc_cut d a hm (edges_singular d h1), if_neg (by tauto), add_zero]
  have k : ∀ K, Dv K p (P.below m a) + Dv K p (P.above m a) = Dv K p P := by
    intro K; cases a <;> simp only [Dv, D3, Box.below, Box.above] <;> ring
  cases c <;> simp only [Bc, Wc]
  · linear_combination M.e * v .ee + M.n * v .en + M.u * v .eu
  · linear_combination M.e * v .en + M.n * v .nn + M.u * v .nu
  · linear_combination M.e * v .eu + M.n * v .nu + M.u * v .uu
  · linear_combination M.e * k (K3 .eee) + M.n * k (K3 .een) + M.u * k (K3 .eeu)
  · linear_combination M.e * k (K3 .enn) + M.n * k (K3 .nnn) + M.u * k (K3 .nnu)
  · linear_combination M.e * k (K3 .euu) + M.n * k (K3 .nuu) + M.u * k (K3 .uuu)
  · linear_combination M.e * k (K3 .een) + M.n * k (K3 .enn) + M.u * k (K3 .enu)
  · linear_combination M.e * k (K3 .eeu) + M.n * k (K3 .enu) + M.u * k (K3 .euu)
  · linear_combination M.e * k (K3 .enu) + M.n * k (K3 .nnu) + M.u * k (K3 .nuu)

/-- Cut the prism by the plane `coordinate a = m` strictly between its bounds.  Wherever the result
for the whole prism and for the two parts is not NaN, the parts add up to the whole. -/
theorem C45_cut (hP : P.Ordered) (c : MComp) (a : Axis) {m : ℝ} (hm : P.lo a < m ∧ m < P.hi a)
    (p : Pt) (M : Vec) (v v₁ v₂ : ℝ)
    (h : Returns (onPrism (A := Exact) (prismMagnetic c) p P M.e M.n M.u) v)
    (h1 : Returns (onPrism (A := Exact) (prismMagnetic c) p (P.below m a) M.e M.n M.u) v₁)
    (h2 : Returns (onPrism (A := Exact) (prismMagnetic c) p (P.above m a) M.e M.n M.u) v₂) :
    v₁ + v₂ = v := by
  have hm' : P.lo a ≤ m ∧ m ≤ P.hi a := ⟨hm.1.le, hm.2.le⟩
  have key : ∀ {Q : Box} {x : ℝ}, Q.Ordered →
      Returns (onPrism (A := Exact) (prismMagnetic c) p Q M.e M.n M.u) x →
      p ∉ Q.edges ∧ p ∉ Q.inside ∧ x = mu0 / 4 / π * Bc c p Q M.e M.n M.u := by
    intro Q x hQ hx
    by_cases hs : p ∈ Q.edges ∨ p ∈ Q.inside
    · have := Ex.magnetic_returns_nan hQ (c := c) hs M.e M.n M.u
      unfold Returns at hx; unfold ReturnsNaN at this
      rw [this] at hx
      exact absurd (Except.ok.inj hx).symm (Ex.fin_ne_nan _)
    · rw [not_or] at hs
      exact ⟨hs.1, hs.2, hx.inj (Ex.magnetic_returns hQ hs.1 hs.2 M.e M.n M.u)⟩
  obtain ⟨e0, i0, rfl⟩ := key hP h
  obtain ⟨e1, i1, rfl⟩ := key (hP.below a hm') h1
  obtain ⟨e2, i2, rfl⟩ := key (hP.above a hm') h2
  rw [← Bc_cut c a hm' p M e1]
  · ring
  · intro hf
    apply i0
    cases a
    · obtain ⟨g1, g2, g3⟩ := hf
      refine ⟨?_, g2, g3⟩
      have g1' : p.1 = m := g1
      rw [g1']; exact hm
    · obtain ⟨g1, g2, g3⟩ := hf
      refine ⟨g1, ?_, g3⟩
      have g2' : p.2.1 = m := g2
      rw [g2']; exact hm
    · obtain ⟨g1, g2, g3⟩ := hf
      refine ⟨g1, g2, ?_⟩
      have g3' : p.2.2 = m := g3
      rw [g3']; exact hm

example : exBox.lo .u < -1 ∧ (-1 : ℝ) < exBox.hi .u ∧
    ((0, 0, 1) : Pt) ∉ exBox.edges ∧ ((0, 0, 1) : Pt) ∉ exBox.inside ∧
    ((0, 0, 1) : Pt) ∉ (exBox.below (-1) .u).edges ∧ ((0, 0, 1) : Pt) ∉ (exBox.below (-1) .u).inside ∧
    ((0, 0, 1) : Pt) ∉ (exBox.above (-1) .u).edges ∧ ((0, 0, 1) : Pt) ∉ (exBox.above (-1) .u).inside := by
  norm_num [exBox, Box.lo, Box.hi, Box.below, Box.above, Box.edges, Box.inside,
    Box.edgesE, Box.edgesN, Box.edgesU]

/-! ## C46 mirror images (magnetics) -/

/-- Mirroring observation point, prism and magnetization multiplies each component by `-1` for every
occurrence of the axis in its name (NaN stays NaN). -/
theorem C46_mirror (hP : P.Ordered) (c : MComp) (a : Axis) (p : Pt) (M : Vec) :
    onPrism (A := Exact) (prismMagnetic c) (p.mirror a) (P.mirror a)
        (M.mirror a).e (M.mirror a).n (M.mirror a).u =
      times ((-1) ^ c.count a) (onPrism (A := Exact) (prismMagnetic c) p P M.e M.n M.u) :=
  magnetic_transport hP (hP.mirror a) (by rw [edges_mirror, inside_mirror])
    (fun h => Bc_mirror hP c a M (fun h' => h (Or.inl h')))

end Choclo
