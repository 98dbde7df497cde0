import Verif.Lemmas.SqrtSq
import Verif.Props.Jacobian
import Verif.Props.ErrorPrism
import Verif.Props.Bits3
import Verif.Props.Scaling

/-! # Rounding errors of the programs of the user guide: C86, C87 -/

namespace Choclo

namespace B64

theorem IsF.grid {x : ℝ} (h : IsF x) : ∃ m : ℤ, x = m * 2 ^ (-1074 : ℤ) := by
  obtain ⟨m, q, -, hq, rfl⟩ := h
  obtain ⟨k, hk⟩ := Int.eq_ofNat_of_zero_le (show 0 ≤ q + 1074 by omega)
  refine ⟨m * 2 ^ k, ?_⟩
  have : q = k + (-1074 : ℤ) := by omega
  rw [this, zpow_add₀ (by norm_num), zpow_natCast]
  push_cast
  ring

/-- the sum of two floating-point numbers is rounded with a relative error at most `2⁻⁵³`: it cannot
underflow -/
theorem add_rel {x z y : ℝ} (hx : IsF x) (hz : IsF z) (h : rnd (x + z) = .fin y) :
    |y - (x + z)| ≤ 2 ^ (-53 : ℤ) * |x + z| := by
  obtain ⟨rfl, -⟩ := rnd_eq_fin h
  by_cases hn : 2 ^ (-1022 : ℤ) ≤ |x + z|
  · exact abs_round_sub_le hn
  · obtain ⟨m, rfl⟩ := hx.grid
    obtain ⟨k, rfl⟩ := hz.grid
    have hF : IsF ((m : ℝ) * 2 ^ (-1074 : ℤ) + k * 2 ^ (-1074 : ℤ)) := by
      refine ⟨m + k, -1074, ?_, le_refl _, by push_cast; ring⟩
      have h1 : |((m + k : ℤ) : ℝ)| * 2 ^ (-1074 : ℤ) < 2 ^ (52 : ℤ) * 2 ^ (-1074 : ℤ) := by
        rw [← zpow_add₀ (by norm_num), show (52 : ℤ) + -1074 = -1022 by norm_num]
        have e : |((m + k : ℤ) : ℝ)| * 2 ^ (-1074 : ℤ) = |(m : ℝ) * 2 ^ (-1074 : ℤ) + k * 2 ^ (-1074 : ℤ)| := by
          rw [← add_mul, abs_mul, abs_of_pos (two_zpow_pos _)]
          push_cast
          rfl
        rw [e]
        exact not_le.1 hn
      have h2 := lt_of_mul_lt_mul_right h1 (two_zpow_pos _).le
      have h3 : |m + k| < 2 ^ 52 := by
        have : ((|m + k| : ℤ) : ℝ) < ((2 ^ 52 : ℤ) : ℝ) := by
          rw [Int.cast_abs]
          refine h2.trans_le (le_of_eq ?_)
          push_cast
          norm_num
        exact_mod_cast this
      exact h3.le.trans (by norm_num)
    rw [hF.round, sub_self, abs_zero]
    exact mul_nonneg (two_zpow_pos _).le (abs_nonneg _)

theorem u_pos : (0 : ℝ) < 2 ^ (-53 : ℤ) := two_zpow_pos _

end B64

open userguide

/-- a finite floating-point number -/
def IsFl (x : Fl Binary64) : Prop := ∀ v : ℝ, x = (v : Fl Binary64) → B64.IsF v

theorem isFl_mul (a b : Fl Binary64) : IsFl (a * b) := by
  intro v h
  obtain ⟨x, z, -, -, h3⟩ := Fl.mul_eq_fin h
  obtain ⟨rfl, -⟩ := B64.rnd_eq_fin h3
  exact B64.isF_round _

theorem grow_le {u : ℝ} (hu : 0 ≤ u) {n k : ℕ} (hn : 1 ≤ n) (hk : 1 ≤ k) {A B a b Sa Sb y : ℝ} (hA : |Sa| ≤ A) (hB : |Sb| ≤ B)
    (ha : |a - Sa| ≤ ((1 + u) ^ (n - 1) - 1) * A) (hb : |b - Sb| ≤ ((1 + u) ^ (k - 1) - 1) * B)
    (hy : |y - (a + b)| ≤ u * |a + b|) :
    |y - (Sa + Sb)| ≤ ((1 + u) ^ (n + k - 1) - 1) * (A + B) := by
  have hA0 : 0 ≤ A := (abs_nonneg _).trans hA
  have hB0 : 0 ≤ B := (abs_nonneg _).trans hB
  have h1 : (1 + u) ^ n ≤ (1 + u) ^ (n + k - 1) := pow_le_pow_right₀ (by linarith) (by omega)
  have h2 : (1 + u) ^ k ≤ (1 + u) ^ (n + k - 1) := pow_le_pow_right₀ (by linarith) (by omega)
  have e1 : (1 + u) ^ n = (1 + u) * (1 + u) ^ (n - 1) := by
    rw [← pow_succ', Nat.sub_add_cancel hn]
  have e2 : (1 + u) ^ k = (1 + u) * (1 + u) ^ (k - 1) := by
    rw [← pow_succ', Nat.sub_add_cancel hk]
  generalize (1 + u) ^ (n + k - 1) = R at *
  generalize (1 + u) ^ (n - 1) = P at *
  generalize (1 + u) ^ (k - 1) = Q at *
  have t1 : |y - (Sa + Sb)| ≤ |y - (a + b)| + (|a - Sa| + |b - Sb|) := by
    calc _ = |(y - (a + b)) + ((a - Sa) + (b - Sb))| := by congr 1; ring
      _ ≤ _ := (abs_add_le _ _).trans (add_le_add_right (abs_add_le _ _) _)
  have t2 : |a + b| ≤ A + B + (|a - Sa| + |b - Sb|) := by
    calc _ = |(Sa + Sb) + ((a - Sa) + (b - Sb))| := by congr 1; ring
      _ ≤ (|Sa| + |Sb|) + (|a - Sa| + |b - Sb|) :=
        (abs_add_le _ _).trans (add_le_add (abs_add_le _ _) (abs_add_le _ _))
      _ ≤ _ := by linarith
  have t3 : u * |a + b| ≤ u * (A + B + (|a - Sa| + |b - Sb|)) := mul_le_mul_of_nonneg_left t2 hu
  have t4 : (1 + u) * (|a - Sa| + |b - Sb|) ≤ (1 + u) * ((P - 1) * A + (Q - 1) * B) :=
    mul_le_mul_of_nonneg_left (add_le_add ha hb) (by linarith)
  have t5 : (1 + u) * P * A ≤ R * A := mul_le_mul_of_nonneg_right (e1 ▸ h1) hA0
  have t6 : (1 + u) * Q * B ≤ R * B := mul_le_mul_of_nonneg_right (e2 ▸ h2) hB0
  nlinarith

theorem abs_sum_le (m : Multiset ℝ) : |m.sum| ≤ (m.map fun x => |x|).sum := by
  induction m using Multiset.induction_on with
  | empty => simp
  | cons a m ih =>
    rw [Multiset.sum_cons, Multiset.map_cons, Multiset.sum_cons]
    exact (abs_add_le _ _).trans (add_le_add_right ih _)

theorem sumsTo_error {s : Multiset (Fl Binary64)} {x : Fl Binary64} (h : SumsTo s x) :
    (∀ z ∈ s, IsFl z) → ∀ y : ℝ, x = (y : Fl Binary64) → (∀ z ∈ s, z = Fl.fin (realOf z)) ∧ B64.IsF y ∧
      |y - (s.map realOf).sum| ≤ ((1 + 2 ^ (-53 : ℤ)) ^ (Multiset.card s - 1) - 1) * (s.map fun z => |realOf z|).sum := by
  induction h with
  | zero =>
    intro _ y hy
    have : ((0 : ℕ) : ℝ) = y := Raw.fin.inj hy
    rw [Nat.cast_zero] at this
    subst this
    exact ⟨fun z hz => absurd hz (Multiset.notMem_zero z), ⟨0, 0, by norm_num, by norm_num, by norm_num⟩, by simp⟩
  | one x =>
    intro hs y hy
    subst hy
    refine ⟨fun z hz => ?_, hs _ (Multiset.mem_singleton_self _) y rfl, ?_⟩
    · rw [Multiset.mem_singleton.1 hz]; rfl
    · simp only [Multiset.map_singleton, Multiset.sum_singleton, Multiset.card_singleton]
      show |y - y| ≤ _
      simp
  | @add s t x z h1 h2 ih1 ih2 =>
    intro hs y hy
    obtain ⟨a, b, rfl, rfl, hab⟩ := Fl.add_eq_fin hy
    obtain ⟨f1, g1, e1⟩ := ih1 (fun z hz => hs z (Multiset.mem_add.2 (.inl hz))) a rfl
    obtain ⟨f2, g2, e2⟩ := ih2 (fun z hz => hs z (Multiset.mem_add.2 (.inr hz))) b rfl
    have hab' : B64.rnd (a + b) = .fin y := hab
    have hyF : B64.IsF y := by
      obtain ⟨rfl, -⟩ := B64.rnd_eq_fin hab'
      exact B64.isF_round _
    refine ⟨fun z hz => (Multiset.mem_add.1 hz).elim (f1 z) (f2 z), hyF, ?_⟩
    rw [Multiset.map_add, Multiset.sum_add, Multiset.map_add, Multiset.sum_add, Multiset.card_add]
    rcases Nat.eq_zero_or_pos (Multiset.card s) with hs0 | hs0
    · obtain rfl := Multiset.card_eq_zero.1 hs0
      have ha : a = 0 := by simpa using e1
      subst ha
      rw [zero_add] at hab'
      have : y = b := (B64.rnd_eq_fin hab').1.symm.trans g2.round
      subst this
      simpa using e2
    rcases Nat.eq_zero_or_pos (Multiset.card t) with ht0 | ht0
    · obtain rfl := Multiset.card_eq_zero.1 ht0
      have hb : b = 0 := by simpa using e2
      subst hb
      rw [add_zero] at hab'
      have : y = a := (B64.rnd_eq_fin hab').1.symm.trans g1.round
      subst this
      simpa using e1
    have c1 := abs_sum_le (s.map realOf)
    have c2 := abs_sum_le (t.map realOf)
    rw [Multiset.map_map] at c1 c2
    exact grow_le B64.u_pos.le hs0 ht0 c1 c2 e1 e2 (B64.add_rel g1 g2 hab')

/-- no overflow -/
theorem sumsTo_finite {s : Multiset (Fl Binary64)} {x : Fl Binary64} (h : SumsTo s x) :
    (∀ z ∈ s, IsFl z ∧ z = Fl.fin (realOf z)) →
    (1 + 2 ^ (-53 : ℤ)) ^ Multiset.card s * (s.map fun z => |realOf z|).sum ≤ 2 ^ (1023 : ℤ) →
    ∃ y : ℝ, x = (y : Fl Binary64) := by
  have hsn : ∀ s : Multiset (Fl Binary64), 0 ≤ (s.map fun z => |realOf z|).sum := fun s =>
    Multiset.sum_nonneg fun x hx => by
      obtain ⟨z, -, rfl⟩ := Multiset.mem_map.1 hx
      exact abs_nonneg _
  induction h with
  | zero => intro _ _; exact ⟨_, rfl⟩
  | one x => intro hs _; exact ⟨_, (hs x (Multiset.mem_singleton_self _)).2⟩
  | @add s t x z h1 h2 ih1 ih2 =>
    intro hs hb
    have m1 : ∀ z ∈ s, IsFl z ∧ z = Fl.fin (realOf z) := fun z hz => hs z (Multiset.mem_add.2 (.inl hz))
    have m2 : ∀ z ∈ t, IsFl z ∧ z = Fl.fin (realOf z) := fun z hz => hs z (Multiset.mem_add.2 (.inr hz))
    rw [Multiset.map_add, Multiset.sum_add, Multiset.card_add] at hb
    have hu := B64.u_pos
    have p1 : (1 + (2 : ℝ) ^ (-53 : ℤ)) ^ Multiset.card s ≤ (1 + 2 ^ (-53 : ℤ)) ^ (Multiset.card s + Multiset.card t) :=
      pow_le_pow_right₀ (by linarith) (by omega)
    have p2 : (1 + (2 : ℝ) ^ (-53 : ℤ)) ^ Multiset.card t ≤ (1 + 2 ^ (-53 : ℤ)) ^ (Multiset.card s + Multiset.card t) :=
      pow_le_pow_right₀ (by linarith) (by omega)
    have p1' : (1 + (2 : ℝ) ^ (-53 : ℤ)) ^ (Multiset.card s - 1) ≤ (1 + 2 ^ (-53 : ℤ)) ^ (Multiset.card s + Multiset.card t) :=
      pow_le_pow_right₀ (by linarith) (by omega)
    have p2' : (1 + (2 : ℝ) ^ (-53 : ℤ)) ^ (Multiset.card t - 1) ≤ (1 + 2 ^ (-53 : ℤ)) ^ (Multiset.card s + Multiset.card t) :=
      pow_le_pow_right₀ (by linarith) (by omega)
    have p0 : 1 ≤ (1 + (2 : ℝ) ^ (-53 : ℤ)) ^ (Multiset.card s + Multiset.card t) := one_le_pow₀ (by linarith)
    have S := hsn s
    have S' := hsn t
    obtain ⟨a, rfl⟩ := ih1 m1 (by nlinarith)
    obtain ⟨b, rfl⟩ := ih2 m2 (by nlinarith)
    obtain ⟨-, -, e1⟩ := sumsTo_error h1 (fun z hz => (m1 z hz).1) a rfl
    obtain ⟨-, -, e2⟩ := sumsTo_error h2 (fun z hz => (m2 z hz).1) b rfl
    have c1 := abs_sum_le (s.map realOf)
    have c2 := abs_sum_le (t.map realOf)
    rw [Multiset.map_map] at c1 c2
    have c1' : |(s.map realOf).sum| ≤ (s.map fun z => |realOf z|).sum := c1
    have c2' : |(t.map realOf).sum| ≤ (t.map fun z => |realOf z|).sum := c2
    refine ⟨B64.round (a + b), ?_⟩
    show (Fl.ofRaw (B64.rnd (a + b)) : Fl Binary64) = _
    rw [B64.rnd_of_le]
    · rfl
    · have t1 : |a + b| ≤ |a| + |b| := abs_add_le _ _
      have t2 : |a| ≤ |a - (s.map realOf).sum| + |(s.map realOf).sum| := by
        calc |a| = |(a - (s.map realOf).sum) + (s.map realOf).sum| := by congr 1; ring
          _ ≤ _ := abs_add_le _ _
      have t3 : |b| ≤ |b - (t.map realOf).sum| + |(t.map realOf).sum| := by
        calc |b| = |(b - (t.map realOf).sum) + (t.map realOf).sum| := by congr 1; ring
          _ ≤ _ := abs_add_le _ _
      generalize (1 + (2 : ℝ) ^ (-53 : ℤ)) ^ (Multiset.card s + Multiset.card t) = R at *
      generalize (1 + (2 : ℝ) ^ (-53 : ℤ)) ^ (Multiset.card s - 1) = P at *
      generalize (1 + (2 : ℝ) ^ (-53 : ℤ)) ^ (Multiset.card t - 1) = Q at *
      generalize (2 : ℝ) ^ (1023 : ℤ) = H at *
      nlinarith [mul_le_mul_of_nonneg_right p1' S, mul_le_mul_of_nonneg_right p2' S']

theorem sumsTo_foldl {A : Arith} (l : List (Fl A)) {s : Multiset (Fl A)} {a : Fl A} (h : SumsTo s a) :
    SumsTo (s + (l : Multiset (Fl A))) (l.foldl (fun a b => a + b) a) := by
  induction l generalizing s a with
  | nil => simpa using h
  | cons x l ih =>
    have := ih (h.add (.one x))
    rw [List.foldl_cons]
    rwa [add_assoc, Multiset.singleton_add, Multiset.cons_coe] at this

/-- left-to-right summation is a way of adding up -/
theorem sumsTo_foldl_zero {A : Arith} (l : List (Fl A)) : SumsTo (l : Multiset (Fl A)) (l.foldl (fun a b => a + b) 0) := by
  have := sumsTo_foldl l (.zero (A := A))
  rwa [zero_add] at this

example {A : Arith} (s : Multiset (Fl A)) : ∃ x, SumsTo s x := by
  induction s using Quotient.inductionOn with
  | h l => exact ⟨_, sumsTo_foldl_zero l⟩

variable {N M : ℕ} {c : Coordinates Binary64 N} {p : Prisms Binary64 M} {d : Fin M → Fl Binary64}

theorem fieldOf_isFl {i : Fin N} {j : Fin M} {g : Fl Binary64} (h : fieldOf c p d i j = .ok g) : IsFl g := by
  unfold fieldOf prism.gravity_u at h
  obtain ⟨k, -, hk⟩ := Py.bind_ok.1 h
  rw [← Py.pure_ok.1 hk]
  exact isFl_mul _ _

/-- **C86.** In IEEE double precision, if the result at a point is finite, then all the fields of the
prisms there are finite, and the result differs from their exact sum by at most
`(1 + 2⁻⁵³)^(M - 1) - 1` times the sum of their magnitudes. Nothing is assumed about the sizes of the
numbers: sums do not underflow. -/
theorem C86_sum {r : Fin N → Fl Binary64} (h : gravity_upward c p d = .ok r) {i : Fin N} {y : ℝ} (hy : r i = (y : Fl Binary64)) :
    ∃ v : Fin M → ℝ, (∀ j, Returns (fieldOf c p d i j) (v j)) ∧
      |y - ∑ j, v j| ≤ ((1 + 2 ^ (-53 : ℤ)) ^ (M - 1) - 1) * ∑ j, |v j| := by
  obtain ⟨G, hG, hr⟩ := (C83_forward r).1 h
  have hs := sumsTo_foldl_zero (List.ofFn (G i))
  rw [← hr i] at hs
  obtain ⟨h1, -, h3⟩ := sumsTo_error hs (fun z hz => by
    rw [Multiset.mem_coe, List.mem_ofFn] at hz
    obtain ⟨j, rfl⟩ := hz
    exact fieldOf_isFl (hG i j)) y hy
  refine ⟨fun j => realOf (G i j), fun j => ?_, ?_⟩
  · unfold Returns
    rw [hG i j, ← h1 (G i j) (by rw [Multiset.mem_coe, List.mem_ofFn]; exact ⟨j, rfl⟩)]
  · rw [Multiset.coe_card, List.length_ofFn, Multiset.map_coe, Multiset.map_coe, Multiset.sum_coe, Multiset.sum_coe,
      List.map_ofFn, List.map_ofFn, List.sum_ofFn, List.sum_ofFn] at h3
    exact h3

/-- **C86.** The result at a point is finite as soon as the fields of the prisms are and their
magnitudes add up to less than the overflow threshold. -/
theorem C86_finite {r : Fin N → Fl Binary64} (h : gravity_upward c p d = .ok r) {i : Fin N} {v : Fin M → ℝ}
    (hv : ∀ j, Returns (fieldOf c p d i j) (v j))
    (hb : (1 + 2 ^ (-53 : ℤ)) ^ M * ∑ j, |v j| ≤ 2 ^ (1023 : ℤ)) : ∃ y : ℝ, r i = (y : Fl Binary64) := by
  obtain ⟨G, hG, hr⟩ := (C83_forward r).1 h
  have hGv : ∀ j, G i j = (v j : Fl Binary64) := fun j => Except.ok.inj ((hG i j).symm.trans (hv j))
  have hs := sumsTo_foldl_zero (List.ofFn (G i))
  rw [← hr i] at hs
  refine sumsTo_finite hs (fun z hz => ?_) ?_
  · rw [Multiset.mem_coe, List.mem_ofFn] at hz
    obtain ⟨j, rfl⟩ := hz
    exact ⟨fieldOf_isFl (hG i j), by rw [hGv]; rfl⟩
  · rw [Multiset.coe_card, List.length_ofFn, Multiset.map_coe, Multiset.sum_coe, List.map_ofFn, List.sum_ofFn]
    refine le_trans (le_of_eq ?_) hb
    congr 1
    refine Finset.sum_congr rfl fun j _ => ?_
    show |realOf (G i j)| = _
    rw [hGv]
    rfl

/-- **C86, against Newton's integrals.** In IEEE double precision, with prisms and densities of moderate
size, a finite result differs from the sum of Newton's integrals over the prisms by at most the sum of
the error bounds of the single prisms (C57) plus the error of the summation. -/
theorem C86_newton {P : Fin M → Box} (hP : ∀ j, (P j).Ordered) (q : Fin N → Pt) (ρ : Fin M → ℝ)
    (hm : ∀ i j, ModerateOffsets (q i) (P j)) (hρ : ∀ j, ModerateSize (ρ j)) {r : Fin N → Fl Binary64}
    (h : gravity_upward (points q) (boxes P) (values ρ) = .ok r) {i : Fin N} {y : ℝ} (hy : r i = (y : Fl Binary64))
    {x δ : Fin M → ℝ}
    (hx : ∀ j, x j = ∫ s in (P j).region, 6.6743e-11 * ρ j * (s.u - (q i).u) / dist3 (q i) s ^ 3)
    (hδ : ∀ j, δ j = 2 ^ (-46 : ℤ) * (6.6743e-11 * |ρ j| * totalSize .u (q i) (P j))) :
    |y - ∑ j, x j| ≤ ∑ j, δ j + ((1 + 2 ^ (-53 : ℤ)) ^ (M - 1) - 1) * ∑ j, (|x j| + δ j) := by
  obtain ⟨v, hv, hvy⟩ := C86_sum h hy
  have hd : ∀ j, |v j - x j| ≤ δ j := by
    intro j
    obtain ⟨w, hw, hwx⟩ := (C57_newton_double (q i) (P j) (hP j) (hm i j) (ρ j) (hρ j)).2 .u
    have e : v j = w := Returns.inj (hv j) hw
    rw [e, hx j, hδ j]
    exact hwx
  have h1 : |∑ j, v j - ∑ j, x j| ≤ ∑ j, δ j := by
    rw [← Finset.sum_sub_distrib]
    exact (Finset.abs_sum_le_sum_abs _ _).trans (Finset.sum_le_sum fun j _ => hd j)
  have h2 : ∑ j, |v j| ≤ ∑ j, (|x j| + δ j) := Finset.sum_le_sum fun j _ => by
    have := hd j
    have e : v j = x j + (v j - x j) := by ring
    rw [e]
    exact (abs_add_le _ _).trans (add_le_add_right this _)
  have hR : 0 ≤ (1 + (2 : ℝ) ^ (-53 : ℤ)) ^ (M - 1) - 1 := by
    have := one_le_pow₀ (n := M - 1) (show (1 : ℝ) ≤ 1 + 2 ^ (-53 : ℤ) by linarith [B64.u_pos])
    linarith
  have h3 := mul_le_mul_of_nonneg_left h2 hR
  have t : |y - ∑ j, x j| ≤ |y - ∑ j, v j| + |∑ j, v j - ∑ j, x j| := by
    calc _ = |(y - ∑ j, v j) + (∑ j, v j - ∑ j, x j)| := by congr 1; ring
      _ ≤ _ := abs_add_le _ _
  linarith

example : (∀ j : Fin 4, ((fun _ => demoPrism) j : Box).Ordered) ∧
    (∀ (i : Fin 3) (j : Fin 4), ModerateOffsets ((fun _ => (130, 75, 5) : Fin 3 → Pt) i) ((fun _ => demoPrism) j)) ∧
    ∃ r : Fin 3 → Fl Binary64, gravity_upward (points fun _ => (130, 75, 5)) (boxes fun _ : Fin 4 => demoPrism)
      (values fun _ => 2670) = .ok r :=
  ⟨fun _ => demo_ordered, fun _ _ => demo_offsets, C83_total Binary64_monotone⟩

/-! ## C87 Jacobian times densities against forward model -/

theorem round_mul {x y : ℝ} (hx : 2 ^ (-1022 : ℤ) ≤ |x|) (h : B64.rnd x = .fin y) : |y - x| ≤ 2 ^ (-53 : ℤ) * |x| := by
  obtain ⟨rfl, -⟩ := B64.rnd_eq_fin h
  exact B64.abs_round_sub_le hx

theorem large_of_round {x y : ℝ} (h : B64.rnd x = .fin y) (hy : 2 ^ (-1021 : ℤ) ≤ |y|) : 2 ^ (-1022 : ℤ) ≤ |x| := by
  by_contra hx
  obtain ⟨rfl, -⟩ := B64.rnd_eq_fin h
  have h1 := B64.abs_round_sub_le_sub (not_le.1 hx)
  have h2 : |B64.round x| ≤ |B64.round x - x| + |x| := by
    calc |B64.round x| = |(B64.round x - x) + x| := by congr 1; ring
      _ ≤ _ := abs_add_le _ _
  have h3 : (2 : ℝ) ^ (-1021 : ℤ) = 2 * 2 ^ (-1022 : ℤ) := by
    rw [show (-1021 : ℤ) = 1 + -1022 by norm_num, zpow_add₀ (by norm_num), zpow_one]
  have h4 : (2 : ℝ) ^ (-53 : ℤ) ≤ 1 := by norm_num
  have h5 := B64.two_zpow_pos (-1022)
  have hx' := not_le.1 hx
  rw [h3] at hy
  generalize (2 : ℝ) ^ (-1022 : ℤ) = L at *
  generalize (2 : ℝ) ^ (-53 : ℤ) = u at *
  nlinarith

/-- one entry: the field of a prism is the Jacobian entry times the density, up to three roundings -/
theorem entry_error {f : Fl Binary64 → Py (Fl Binary64)} {K : Py (Fl Binary64)} (hf : Factored f K) {J ρ v : ℝ}
    (hJ : Returns (f (1 : ℝ)) J) (hv : Returns (f ρ) v) (hs : SafeEntry J ρ v) :
    |v - J * ρ| ≤ ((1 + 2 ^ (-53 : ℤ)) ^ 4 - 1) * |J * ρ| := by
  rcases hs with ⟨h0, rfl⟩ | ⟨s1, s2, s3⟩
  · rw [h0]; simp
  obtain ⟨G0, g1, k, a1, b1, c1, d1⟩ := hf.spec hJ
  obtain ⟨G1, g, k', a2, b2, c2, d2⟩ := hf.spec hv
  obtain rfl : G0 = G1 := Raw.fin.inj (a1.symm.trans a2)
  obtain rfl : k = k' := Raw.fin.inj (Except.ok.inj (c1.symm.trans c2))
  obtain ⟨G', a', l1, l2⟩ := G64
  obtain rfl : G0 = G' := Raw.fin.inj (a1.symm.trans a')
  -- the density one costs nothing
  have hG : G0 = g1 := by
    rw [mul_one] at b1
    have hF : B64.IsF G0 := by
      obtain ⟨rfl, -⟩ := B64.rnd_eq_fin a1
      exact B64.isF_round _
    exact hF.round.symm.trans (B64.rnd_eq_fin b1).1
  subst hG
  have d1' : B64.rnd (G0 * k) = .fin J := d1
  have e1 := round_mul (large_of_round d1' s1) d1'
  have hGρ : (2 : ℝ) ^ (-1022 : ℤ) ≤ |G0 * ρ| := by
    rw [abs_mul]
    calc (2 : ℝ) ^ (-1022 : ℤ) ≤ 2 ^ (-34 : ℤ) * 2 ^ (-980 : ℤ) := by
          rw [← zpow_add₀ (by norm_num)]
          exact B64.two_zpow_le (by norm_num)
      _ ≤ |G0| * |ρ| := mul_le_mul (l1.trans (le_abs_self _)) s2 (B64.two_zpow_pos _).le (abs_nonneg _)
  have e2 := round_mul hGρ b2
  -- the product
  have hu : (2 : ℝ) ^ (-53 : ℤ) ≤ 1 / 1000 := by norm_num
  have hu0 := B64.u_pos
  have hkJ : (1 - 2 ^ (-53 : ℤ)) * |G0 * k| ≤ |J| := by
    have : |G0 * k| ≤ |J| + |J - G0 * k| := by
      calc |G0 * k| = |J - (J - G0 * k)| := by congr 1; ring
        _ ≤ _ := abs_sub _ _
    linarith
  have hJk : |J| ≤ (1 + 2 ^ (-53 : ℤ)) * |G0 * k| := by
    have : |J| ≤ |G0 * k| + |J - G0 * k| := by
      calc |J| = |G0 * k + (J - G0 * k)| := by congr 1; ring
        _ ≤ _ := abs_add_le _ _
    linarith
  have hg : (1 - 2 ^ (-53 : ℤ)) * |G0 * ρ| ≤ |g| := by
    have : |G0 * ρ| ≤ |g| + |g - G0 * ρ| := by
      calc |G0 * ρ| = |g - (g - G0 * ρ)| := by congr 1; ring
        _ ≤ _ := abs_sub _ _
    linarith
  have hgk : (2 : ℝ) ^ (-1022 : ℤ) ≤ |g * k| := by
    have w1 : (1 - 2 ^ (-53 : ℤ)) * |G0 * ρ| * |k| ≤ |g| * |k| := mul_le_mul_of_nonneg_right hg (abs_nonneg _)
    have w2 : |J * ρ| ≤ (1 + 2 ^ (-53 : ℤ)) * (|G0 * ρ| * |k|) := by
      have := mul_le_mul_of_nonneg_right hJk (abs_nonneg ρ)
      rw [abs_mul J ρ]
      refine this.trans (le_of_eq ?_)
      simp only [abs_mul]
      ring
    have h3 : (2 : ℝ) ^ (-1021 : ℤ) = 2 * 2 ^ (-1022 : ℤ) := by
      rw [show (-1021 : ℤ) = 1 + -1022 by norm_num, zpow_add₀ (by norm_num), zpow_one]
    rw [h3] at s3
    rw [abs_mul g k]
    generalize (2 : ℝ) ^ (-1022 : ℤ) = L at *
    generalize (2 : ℝ) ^ (-53 : ℤ) = u at *
    have w3 : 0 ≤ |G0 * ρ| * |k| := mul_nonneg (abs_nonneg _) (abs_nonneg _)
    nlinarith
  have e3 := round_mul hgk d2
  -- collect
  have X : |G0 * ρ * k| * (1 - 2 ^ (-53 : ℤ)) ≤ |J * ρ| := by
    have := mul_le_mul_of_nonneg_right hkJ (abs_nonneg ρ)
    rw [abs_mul J ρ]
    refine le_trans (le_of_eq ?_) this
    simp only [abs_mul]
    ring
  have Y1 : |J * ρ - G0 * ρ * k| ≤ 2 ^ (-53 : ℤ) * |G0 * ρ * k| := by
    have := mul_le_mul_of_nonneg_right e1 (abs_nonneg ρ)
    rw [← abs_mul] at this
    refine le_trans (le_of_eq ?_) (this.trans (le_of_eq ?_))
    · congr 1; ring
    · simp only [abs_mul]; ring
  have Y2 : |g * k - G0 * ρ * k| ≤ 2 ^ (-53 : ℤ) * |G0 * ρ * k| := by
    have := mul_le_mul_of_nonneg_right e2 (abs_nonneg k)
    rw [← abs_mul] at this
    refine le_trans (le_of_eq ?_) (this.trans (le_of_eq ?_))
    · congr 1; ring
    · rw [mul_assoc, ← abs_mul]
  have Y3 : |g * k| ≤ |G0 * ρ * k| + |g * k - G0 * ρ * k| := by
    calc |g * k| = |G0 * ρ * k + (g * k - G0 * ρ * k)| := by congr 1; ring
      _ ≤ _ := abs_add_le _ _
  have t : |v - J * ρ| ≤ |v - g * k| + |g * k - G0 * ρ * k| + |J * ρ - G0 * ρ * k| := by
    calc |v - J * ρ| = |(v - g * k) + (g * k - G0 * ρ * k) - (J * ρ - G0 * ρ * k)| := by congr 1; ring
      _ ≤ |(v - g * k) + (g * k - G0 * ρ * k)| + |J * ρ - G0 * ρ * k| := abs_sub _ _
      _ ≤ _ := add_le_add_left (abs_add_le _ _) _
  have hX0 := abs_nonneg (G0 * ρ * k)
  generalize |G0 * ρ * k| = Z at *
  generalize (2 : ℝ) ^ (-53 : ℤ) = u at *
  have t2 : |v - J * ρ| ≤ (3 * u + u ^ 2) * Z := by nlinarith
  have t3 : (3 * u + u ^ 2) * Z ≤ ((1 + u) ^ 4 - 1) * (Z * (1 - u)) := by
    have : 3 * u + u ^ 2 ≤ ((1 + u) ^ 4 - 1) * (1 - u) := by nlinarith [pow_pos hu0 2, pow_pos hu0 3, pow_pos hu0 4]
    nlinarith
  have t4 : ((1 + u) ^ 4 - 1) * (Z * (1 - u)) ≤ ((1 + u) ^ 4 - 1) * |J * ρ| := by
    refine mul_le_mul_of_nonneg_left X ?_
    have := one_le_pow₀ (n := 4) (show 1 ≤ 1 + u by linarith)
    linarith
  linarith

/-- a sum of perturbed numbers -/
theorem sum_error {u : ℝ} {n : ℕ} {R : ℝ} (hR : 1 ≤ R) {w x : Fin M → ℝ} {y : ℝ}
    (h1 : |y - ∑ j, w j| ≤ (R - 1) * ∑ j, |w j|) (h2 : ∀ j, |w j - x j| ≤ ((1 + u) ^ n - 1) * |x j|) :
    |y - ∑ j, x j| ≤ (R * (1 + u) ^ n - 1) * ∑ j, |x j| := by
  have a1 : |∑ j, w j - ∑ j, x j| ≤ ((1 + u) ^ n - 1) * ∑ j, |x j| := by
    rw [← Finset.sum_sub_distrib, Finset.mul_sum]
    exact (Finset.abs_sum_le_sum_abs _ _).trans (Finset.sum_le_sum fun j _ => h2 j)
  have a2 : ∑ j, |w j| ≤ (1 + u) ^ n * ∑ j, |x j| := by
    rw [Finset.mul_sum]
    refine Finset.sum_le_sum fun j _ => ?_
    have : |w j| ≤ |x j| + |w j - x j| := by
      calc |w j| = |x j + (w j - x j)| := by congr 1; ring
        _ ≤ _ := abs_add_le _ _
    linarith [h2 j]
  have a3 : |y - ∑ j, x j| ≤ |y - ∑ j, w j| + |∑ j, w j - ∑ j, x j| := by
    calc _ = |(y - ∑ j, w j) + (∑ j, w j - ∑ j, x j)| := by congr 1; ring
      _ ≤ _ := abs_add_le _ _
  have a4 := mul_le_mul_of_nonneg_left a2 (show 0 ≤ R - 1 by linarith)
  nlinarith

/-! ### Sums of products, with or without fused multiply-adds -/

theorem fma_eq_fin {A : Arith} {a b c : Fl A} {y : ℝ} (h : fma a b c = (y : Fl A)) :
    ∃ u v w : ℝ, a = (u : Fl A) ∧ b = (v : Fl A) ∧ c = (w : Fl A) ∧ A.rnd (u * v + w) = .fin y := by
  have key : ∀ {z : Fl A}, (∀ v : ℝ, z ≠ Fl.fin v) → z + c = (y : Fl A) → False := fun hz h => by
    obtain ⟨v, -, h1, -⟩ := Fl.add_eq_fin h
    exact hz v h1
  rcases a with _ | s | u
  · exact (key (z := Fl.mul (A := A) Raw.nan b) (fun v hv => by
      obtain ⟨_, _, h1, -⟩ := Fl.mul_eq_fin hv; cases h1) h).elim
  · exact (key (z := Fl.mul (A := A) (Raw.inf s) b) (fun v hv => by
      obtain ⟨_, _, h1, -⟩ := Fl.mul_eq_fin hv; cases h1) h).elim
  rcases b with _ | s | v
  · exact (key (z := Fl.mul (A := A) (Raw.fin u) Raw.nan) (fun v hv => by
      obtain ⟨_, _, -, h1, -⟩ := Fl.mul_eq_fin hv; cases h1) h).elim
  · exact (key (z := Fl.mul (A := A) (Raw.fin u) (Raw.inf s)) (fun v hv => by
      obtain ⟨_, _, -, h1, -⟩ := Fl.mul_eq_fin hv; cases h1) h).elim
  rcases c with _ | s | w
  · cases h
  · cases h
  · exact ⟨u, v, w, rfl, rfl, rfl, h⟩

/-- a product that does not underflow -/
def SafeProduct (x : ℝ) : Prop := x = 0 ∨ 2 ^ (-1022 : ℤ) ≤ |x|

/-- the rounding error of a fused multiply-add -/
theorem fma_rel {p x y : ℝ} (hp : SafeProduct p) (hx : B64.IsF x) (h : B64.rnd (p + x) = .fin y) :
    |y - (p + x)| ≤ 2 ^ (-53 : ℤ) * (|p| + |x|) := by
  have hu := B64.u_pos
  obtain ⟨rfl, -⟩ := B64.rnd_eq_fin h
  rcases hp with rfl | hp
  · rw [zero_add, hx.round, sub_self, abs_zero]
    positivity
  by_cases hn : 2 ^ (-1022 : ℤ) ≤ |p + x|
  · exact (B64.abs_round_sub_le hn).trans (mul_le_mul_of_nonneg_left (abs_add_le _ _) hu.le)
  rw [not_le] at hn
  rcases eq_or_ne (p + x) 0 with h0 | h0
  · rw [h0, B64.round_zero, sub_self, abs_zero]
    positivity
  have hq : B64.qexp (p + x) = -1074 := by
    unfold B64.qexp
    refine max_eq_right ?_
    have : Int.log 2 |p + x| < -1022 := by
      rw [← Int.lt_zpow_iff_log_lt (by norm_num) (abs_pos.2 h0)]
      push_cast
      exact hn
    omega
  have h1 := B64.abs_round_sub_le_ulp (p + x)
  rw [hq] at h1
  have h2 : (1 : ℝ) / 2 * 2 ^ (-1074 : ℤ) = 2 ^ (-53 : ℤ) * 2 ^ (-1022 : ℤ) := by
    rw [show (-1074 : ℤ) = 1 + (-53 + -1022) by norm_num, zpow_add₀ (by norm_num), zpow_add₀ (by norm_num)]
    ring
  rw [h2] at h1
  refine h1.trans (mul_le_mul_of_nonneg_left (hp.trans (le_add_of_nonneg_right (abs_nonneg _))) hu.le)

theorem dots_grow {u P Q R A B a b Sa Sb y : ℝ} (hu : 0 ≤ u) (hP : (1 + u) * P ≤ R) (hQ : (1 + u) * Q ≤ R)
    (hA : |Sa| ≤ A) (hB : |Sb| ≤ B) (ha : |a - Sa| ≤ (P - 1) * A) (hb : |b - Sb| ≤ (Q - 1) * B)
    (hy : |y - (a + b)| ≤ u * (|a| + |b|)) : |y - (Sa + Sb)| ≤ (R - 1) * (A + B) := by
  have hA0 : 0 ≤ A := (abs_nonneg _).trans hA
  have hB0 : 0 ≤ B := (abs_nonneg _).trans hB
  have t1 : |y - (Sa + Sb)| ≤ |y - (a + b)| + (|a - Sa| + |b - Sb|) := by
    calc _ = |(y - (a + b)) + ((a - Sa) + (b - Sb))| := by congr 1; ring
      _ ≤ _ := (abs_add_le _ _).trans (add_le_add_right (abs_add_le _ _) _)
  have t2 : |a| ≤ A + |a - Sa| := by
    calc _ = |Sa + (a - Sa)| := by congr 1; ring
      _ ≤ |Sa| + |a - Sa| := abs_add_le _ _
      _ ≤ _ := by linarith
  have t2' : |b| ≤ B + |b - Sb| := by
    calc _ = |Sb + (b - Sb)| := by congr 1; ring
      _ ≤ |Sb| + |b - Sb| := abs_add_le _ _
      _ ≤ _ := by linarith
  have t3 : u * (|a| + |b|) ≤ u * ((A + |a - Sa|) + (B + |b - Sb|)) := mul_le_mul_of_nonneg_left (add_le_add t2 t2') hu
  have t4 : (1 + u) * (|a - Sa| + |b - Sb|) ≤ (1 + u) * ((P - 1) * A + (Q - 1) * B) :=
    mul_le_mul_of_nonneg_left (add_le_add ha hb) (by linarith)
  have t5 : (1 + u) * P * A ≤ R * A := mul_le_mul_of_nonneg_right hP hA0
  have t6 : (1 + u) * Q * B ≤ R * B := mul_le_mul_of_nonneg_right hQ hB0
  nlinarith

/-- the product of a pair of numbers -/
def pairReal {A : Arith} (z : Fl A × Fl A) : ℝ := realOf z.1 * realOf z.2

theorem dotsTo_error {s : Multiset (Fl Binary64 × Fl Binary64)} {x : Fl Binary64} (h : DotsTo s x) :
    (∀ z ∈ s, SafeProduct (pairReal z)) → ∀ y : ℝ, x = (y : Fl Binary64) → B64.IsF y ∧
      |y - (s.map pairReal).sum| ≤ ((1 + 2 ^ (-53 : ℤ)) ^ Multiset.card s - 1) * (s.map fun z => |pairReal z|).sum := by
  have hu := B64.u_pos
  induction h with
  | zero =>
    intro _ y hy
    have : ((0 : ℕ) : ℝ) = y := Raw.fin.inj hy
    rw [Nat.cast_zero] at this
    subst this
    exact ⟨⟨0, 0, by norm_num, by norm_num, by norm_num⟩, by simp⟩
  | mul a b =>
    intro hs y hy
    obtain ⟨u, v, rfl, rfl, huv⟩ := Fl.mul_eq_fin hy
    have huv' : B64.rnd (u * v) = .fin y := huv
    have hp : SafeProduct (u * v) := hs _ (Multiset.mem_singleton_self _)
    refine ⟨?_, ?_⟩
    · obtain ⟨rfl, -⟩ := B64.rnd_eq_fin huv'
      exact B64.isF_round _
    · have := fma_rel (x := 0) hp ⟨0, 0, by norm_num, by norm_num, by norm_num⟩ (by rw [add_zero]; exact huv')
      rw [add_zero, abs_zero, add_zero] at this
      simp only [Multiset.map_singleton, Multiset.sum_singleton, Multiset.card_singleton, pow_one]
      rw [add_sub_cancel_left]
      exact this
  | @add s t x z h1 h2 ih1 ih2 =>
    intro hs y hy
    obtain ⟨a, b, rfl, rfl, hab⟩ := Fl.add_eq_fin hy
    obtain ⟨g1, e1⟩ := ih1 (fun z hz => hs z (Multiset.mem_add.2 (.inl hz))) a rfl
    obtain ⟨g2, e2⟩ := ih2 (fun z hz => hs z (Multiset.mem_add.2 (.inr hz))) b rfl
    have hab' : B64.rnd (a + b) = .fin y := hab
    have hyF : B64.IsF y := by
      obtain ⟨rfl, -⟩ := B64.rnd_eq_fin hab'
      exact B64.isF_round _
    refine ⟨hyF, ?_⟩
    rw [Multiset.map_add, Multiset.sum_add, Multiset.map_add, Multiset.sum_add, Multiset.card_add]
    rcases Nat.eq_zero_or_pos (Multiset.card s) with hs0 | hs0
    · obtain rfl := Multiset.card_eq_zero.1 hs0
      have ha : a = 0 := by simpa using e1
      subst ha
      rw [zero_add] at hab'
      have : y = b := (B64.rnd_eq_fin hab').1.symm.trans g2.round
      subst this
      simpa using e2
    rcases Nat.eq_zero_or_pos (Multiset.card t) with ht0 | ht0
    · obtain rfl := Multiset.card_eq_zero.1 ht0
      have hb : b = 0 := by simpa using e2
      subst hb
      rw [add_zero] at hab'
      have : y = a := (B64.rnd_eq_fin hab').1.symm.trans g1.round
      subst this
      simpa using e1
    have c1 := abs_sum_le (s.map pairReal)
    have c2 := abs_sum_le (t.map pairReal)
    rw [Multiset.map_map] at c1 c2
    refine dots_grow hu.le ?_ ?_ c1 c2 e1 e2 ((B64.add_rel g1 g2 hab').trans
      (mul_le_mul_of_nonneg_left (abs_add_le _ _) hu.le))
    · rw [← pow_succ']; exact pow_le_pow_right₀ (by linarith) (by omega)
    · rw [← pow_succ']; exact pow_le_pow_right₀ (by linarith) (by omega)
  | @fma s x a b _ ih =>
    intro hs y hy
    obtain ⟨p, q, w, rfl, rfl, rfl, hpq⟩ := fma_eq_fin hy
    obtain ⟨g1, e1⟩ := ih (fun z hz => hs z (Multiset.mem_cons_of_mem hz)) w rfl
    have hpq' : B64.rnd (p * q + w) = .fin y := hpq
    have hp : SafeProduct (p * q) := hs _ (Multiset.mem_cons_self _ _)
    refine ⟨?_, ?_⟩
    · obtain ⟨rfl, -⟩ := B64.rnd_eq_fin hpq'
      exact B64.isF_round _
    rw [Multiset.map_cons, Multiset.sum_cons, Multiset.map_cons, Multiset.sum_cons, Multiset.card_cons]
    have c1 := abs_sum_le (s.map pairReal)
    rw [Multiset.map_map] at c1
    refine dots_grow (P := 1) hu.le ?_ ?_ le_rfl c1 (a := p * q) ?_ e1 (fma_rel hp g1 hpq')
    · rw [mul_one]; exact le_self_pow₀ (by linarith) (by omega)
    · rw [← pow_succ']
    · show |p * q - p * q| ≤ _
      simp

variable {T : ℕ} {chunks : Fin T → List (Fin N)}

/-- **C87.** In IEEE double precision `jacobian @ densities`, added up in whatever order and with or without fused
multiply-adds, reproduces the forward model up to rounding: as long as nothing underflows, finite results at a point differ by at
most `2 ((1 + 2⁻⁵³)^(M + 3) - 1)` times the sum of the magnitudes `|J[i, j] densities[j]|`. -/
theorem C87_product (hc : Distribution chunks) {J : Fin N → Fin M → Fl Binary64} (hJ : build_jacobian c p chunks J)
    {ρ : Fin M → ℝ} {r r' : Fin N → Fl Binary64} (hr : gravity_upward c p (values ρ) = .ok r)
    (hr' : matmul J (values ρ) r') {i : Fin N} {y y' : ℝ} (hy : r i = (y : Fl Binary64)) (hy' : r' i = (y' : Fl Binary64))
    {j v : Fin M → ℝ} (hj : ∀ k, J i k = (j k : Fl Binary64)) (hv : ∀ k, Returns (fieldOf c p (values ρ) i k) (v k))
    (hs : ∀ k, SafeEntry (j k) (ρ k) (v k)) :
    |y' - y| ≤ 2 * ((1 + 2 ^ (-53 : ℤ)) ^ (M + 3) - 1) * ∑ k, |j k * ρ k| := by
  have hu0 := B64.u_pos
  have hR : 1 ≤ (1 + (2 : ℝ) ^ (-53 : ℤ)) ^ (M - 1) := one_le_pow₀ (by linarith)
  -- forward model
  have f1 : |y - ∑ k, j k * ρ k| ≤ ((1 + (2 : ℝ) ^ (-53 : ℤ)) ^ (M - 1) * (1 + 2 ^ (-53 : ℤ)) ^ 4 - 1) * ∑ k, |j k * ρ k| := by
    obtain ⟨v', hv', hvy⟩ := C86_sum hr hy
    have e : v' = v := funext fun k => Returns.inj (hv' k) (hv k)
    subst e
    refine sum_error hR hvy fun k => ?_
    obtain ⟨K, hK⟩ := factored_prism (A := Binary64) .u (c.easting i) (c.northing i) (c.upward i) (p k 0) (p k 1) (p k 2) (p k 3)
      (p k 4) (p k 5)
    refine entry_error hK ?_ (hv k) (hs k)
    have h1 := (C85_entries hc J).1 hJ i k
    rw [hj k] at h1
    have h2 : prismGravity .u (c.easting i) (c.northing i) (c.upward i) (p k 0) (p k 1) (p k 2) (p k 3)
      (p k 4) (p k 5) (Fl.fin ((1 : ℕ) : ℝ)) = .ok (j k : Fl Binary64) := h1
    rw [Nat.cast_one] at h2
    exact h2
  -- matrix product
  have f2 : |y' - ∑ k, j k * ρ k| ≤ ((1 + (2 : ℝ) ^ (-53 : ℤ)) ^ M - 1) * ∑ k, |j k * ρ k| := by
    have e : ∀ k, pairReal (J i k, (values ρ k : Fl Binary64)) = j k * ρ k := fun k => by rw [hj k]; rfl
    have h := (dotsTo_error (hr' i) (fun z hz => by
      obtain ⟨k, -, rfl⟩ := Multiset.mem_map.1 hz
      rw [e k]
      exact (hs k).imp And.left fun h => (B64.two_zpow_le (by norm_num)).trans h.2.2) y' hy').2
    rw [Multiset.card_map, Multiset.map_map, Multiset.map_map, Finset.card_val, Finset.card_univ, Fintype.card_fin] at h
    simp only [Function.comp_def, e] at h
    exact h
  have hS : 0 ≤ ∑ k, |j k * ρ k| := Finset.sum_nonneg fun k _ => abs_nonneg _
  rcases Nat.eq_zero_or_pos M with rfl | hM
  · simp only [Finset.univ_eq_empty, Finset.sum_empty, mul_zero, sub_zero] at f1 f2 ⊢
    have := abs_nonpos_iff.1 f1
    have := abs_nonpos_iff.1 f2
    simp [*]
  have e1 : (1 + (2 : ℝ) ^ (-53 : ℤ)) ^ (M - 1) * (1 + 2 ^ (-53 : ℤ)) ^ 4 = (1 + 2 ^ (-53 : ℤ)) ^ (M + 3) := by
    rw [← pow_add]; congr 1; omega
  have e2 : (1 + (2 : ℝ) ^ (-53 : ℤ)) ^ M ≤ (1 + 2 ^ (-53 : ℤ)) ^ (M + 3) :=
    pow_le_pow_right₀ (by linarith) (by omega)
  rw [e1] at f1
  have e3 := mul_le_mul_of_nonneg_right e2 hS
  have t : |y' - y| ≤ |y' - ∑ k, j k * ρ k| + |y - ∑ k, j k * ρ k| := by
    calc |y' - y| = |(y' - ∑ k, j k * ρ k) - (y - ∑ k, j k * ρ k)| := by congr 1; ring
      _ ≤ _ := abs_sub _ _
  generalize (1 + (2 : ℝ) ^ (-53 : ℤ)) ^ (M + 3) = R at *
  nlinarith

theorem pow_sub_one_le {u : ℝ} (hu : 0 ≤ u) {n : ℕ} (h : n * u ≤ 1) : (1 + u) ^ n - 1 ≤ 2 * (n * u) := by
  have h1 : (1 + u) ^ n ≤ Real.exp (n * u) := by
    rw [Real.exp_nat_mul]
    exact pow_le_pow_left₀ (by linarith) (by linarith [Real.add_one_le_exp u]) n
  have h0 : 0 ≤ n * u := by positivity
  have h2 := Real.abs_exp_sub_one_sub_id_le (x := n * u) (by rw [abs_of_nonneg h0]; exact h)
  have h3 := (abs_le.1 h2).2
  nlinarith

/-- **C87.** The comparison at the end of the user guide's page on the Jacobian, `np.allclose(g_u, expected)`, succeeds: if the
magnitudes `|J[i, j] densities[j]|` at a point add up to at most 2^24/(M + 3) m/s² (for a million prisms 16 m/s²) and nothing
underflows, the two numbers there differ by at most the absolute tolerance 1e-8 of `np.allclose`. -/
theorem C87_allclose (hc : Distribution chunks) {J : Fin N → Fin M → Fl Binary64} (hJ : build_jacobian c p chunks J)
    {ρ : Fin M → ℝ} {r r' : Fin N → Fl Binary64} (hr : gravity_upward c p (values ρ) = .ok r)
    (hr' : matmul J (values ρ) r') {i : Fin N} {y y' : ℝ} (hy : r i = (y : Fl Binary64)) (hy' : r' i = (y' : Fl Binary64))
    {j v : Fin M → ℝ} (hj : ∀ k, J i k = (j k : Fl Binary64)) (hv : ∀ k, Returns (fieldOf c p (values ρ) i k) (v k))
    (hs : ∀ k, SafeEntry (j k) (ρ k) (v k)) (hM : (M + 3 : ℝ) ≤ 2 ^ 53) (hS : (M + 3) * ∑ k, |j k * ρ k| ≤ 2 ^ 24) :
    |y' - y| ≤ 1e-8 := by
  refine (C87_product hc hJ hr hr' hy hy' hj hv hs).trans ?_
  have hS0 : 0 ≤ ∑ k, |j k * ρ k| := Finset.sum_nonneg fun k _ => abs_nonneg _
  have hu : (2 : ℝ) ^ (-53 : ℤ) = 1 / 2 ^ 53 := by norm_num
  have hp := pow_sub_one_le (u := (2 : ℝ) ^ (-53 : ℤ)) (n := M + 3) (B64.two_zpow_pos _).le (by
    rw [hu]; push_cast; rw [mul_one_div, div_le_one (by positivity)]; exact hM)
  have h1 := mul_le_mul_of_nonneg_right hp hS0
  have h2 : 2 * (((M + 3 : ℕ) : ℝ) * 2 ^ (-53 : ℤ)) * ∑ k, |j k * ρ k| ≤ 2 * (2 ^ (-53 : ℤ) * 2 ^ 24) := by
    push_cast
    have := mul_le_mul_of_nonneg_left hS (B64.two_zpow_pos (-53)).le
    linarith
  have h3 : 2 * (2 * ((2 : ℝ) ^ (-53 : ℤ) * 2 ^ 24)) ≤ 1e-8 := by norm_num
  rw [mul_assoc]
  exact (mul_le_mul_of_nonneg_left (h1.trans h2) (by norm_num)).trans h3

/-- numbers as in the user guide: fields around 1e-8, densities of a few hundred -/
example : SafeEntry (-1.5e-9) 200 (-3e-7) := by
  have h1 : (2 : ℝ) ^ (-1021 : ℤ) ≤ 2 ^ (-34 : ℤ) := B64.two_zpow_le (by norm_num)
  have h2 : (2 : ℝ) ^ (-980 : ℤ) ≤ 2 ^ (0 : ℤ) := B64.two_zpow_le (by norm_num)
  refine .inr ⟨h1.trans ?_, h2.trans ?_, h1.trans ?_⟩
  · rw [abs_of_neg (by norm_num)]; norm_num
  · rw [abs_of_pos (by norm_num)]; norm_num
  · rw [abs_of_neg (by norm_num)]; norm_num

end Choclo
