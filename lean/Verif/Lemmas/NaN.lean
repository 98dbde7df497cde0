import Verif.Lemmas.Generic

/-! # NaN propagation through the operations and the prism kernels -/

namespace Choclo

variable {A : Arith}

namespace Fl

@[simp] theorem nan_add (a : Fl A) : nan + a = nan := by
  change add nan a = nan
  cases a <;> rfl
@[simp] theorem add_nan (a : Fl A) : a + nan = nan := by
  change add a nan = nan
  cases a <;> rfl
@[simp] theorem neg_nan' : -(nan : Fl A) = nan := rfl
@[simp] theorem nan_sub (a : Fl A) : nan - a = nan := by
  change add nan (neg a) = nan
  cases a <;> rfl
@[simp] theorem sub_nan (a : Fl A) : a - nan = nan := by
  change add a nan = nan
  cases a <;> rfl
@[simp] theorem nan_mul (a : Fl A) : nan * a = nan := by
  change mul nan a = nan
  cases a <;> rfl
@[simp] theorem mul_nan (a : Fl A) : a * nan = nan := by
  change mul a nan = nan
  cases a <;> rfl
@[simp] theorem nan_pow (n : ℕ) [NeZero n] : (nan : Fl A) ^ n = nan := by
  change pow nan n = nan
  show (if n = 0 then _ else _) = _
  rw [if_neg (NeZero.ne n)]
@[simp] theorem sqrt_nan : sqrt (nan : Fl A) = nan := rfl
@[simp] theorem log_nan : log (nan : Fl A) = nan := rfl
@[simp] theorem arctan_nan : arctan (nan : Fl A) = nan := rfl
@[simp] theorem cos_nan : cos (nan : Fl A) = nan := rfl
@[simp] theorem sin_nan : sin (nan : Fl A) = nan := rfl
@[simp] theorem radians_nan : radians (nan : Fl A) = nan := rfl
@[simp] theorem div_nan (a : Fl A) : a /. nan = .ok nan := by
  cases a <;> rfl
@[simp] theorem lt_nan (a : Fl A) : lt a nan = false := by
  cases a <;> rfl
@[simp] theorem nan_lt (a : Fl A) : lt nan a = false := by
  cases a <;> rfl
@[simp] theorem le_nan (a : Fl A) : le a nan = false := by
  cases a <;> rfl
@[simp] theorem nan_le (a : Fl A) : le nan a = false := by
  cases a <;> rfl
@[simp] theorem eq_nan (a : Fl A) : eq a nan = false := by
  cases a <;> rfl
@[simp] theorem nan_eq (a : Fl A) : eq nan a = false := by
  cases a <;> rfl

theorem nan_div_ok {a v : Fl A} (h : nan /. a = .ok v) : v = nan := by
  cases a with
  | nan => cases h; rfl
  | inf s => cases h; rfl
  | fin y =>
    change (if y = 0 then _ else _) = _ at h
    split at h
    · cases h
    · cases h; rfl

end Fl

namespace prism

@[simp] theorem ok_bind {α β : Type} (a : α) (f : α → Py β) :
    ((.ok a : Py α) >>= f) = f a := rfl

theorem vrad_nan {x y z : Fl A} (h : x = Fl.nan ∨ y = Fl.nan ∨ z = Fl.nan) : vrad x y z = Fl.nan := by
  unfold vrad
  rcases h with rfl | rfl | rfl <;> simp

theorem safe_log_nan {x y z : Fl A} (h : x = Fl.nan ∨ y = Fl.nan ∨ z = Fl.nan) :
    _safe_log x y z Fl.nan = .ok Fl.nan := by
  unfold _safe_log
  simp only [Fl.nan_eq, Fl.nan_sub, Fl.div_nan, Fl.add_nan, Fl.log_nan, Bool.false_eq_true, if_false,
    ok_bind]
  split
  · rename_i hx
    split
    · rename_i hyz
      rcases h with rfl | rfl | rfl <;> simp at hx hyz
    · rfl
  · rfl

theorem safe_atan2_nan (y : Fl A) : _safe_atan2 y Fl.nan = .ok Fl.nan := by
  unfold _safe_atan2
  simp

/-- the kernel is NaN as soon as one of the shifted coordinates is -/
def Taints (K : Kernel A) : Prop :=
  ∀ x y z : Fl A, (x = Fl.nan ∨ y = Fl.nan ∨ z = Fl.nan) → vker K x y z = .ok Fl.nan

theorem taints_pot : Taints (kernel_pot (A := A)) := by
  intro x y z h
  unfold vker
  rw [vrad_nan h]
  unfold kernel_pot
  rw [safe_log_nan (by tauto), safe_log_nan (by tauto), safe_log_nan (by tauto)]
  simp [safe_atan2_nan]

theorem taints_e : Taints (kernel_e (A := A)) := by
  intro x y z h
  unfold vker
  rw [vrad_nan h]
  unfold kernel_e
  rw [safe_log_nan (by tauto), safe_log_nan (by tauto)]
  simp [safe_atan2_nan]

theorem taints_n : Taints (kernel_n (A := A)) := by
  intro x y z h
  unfold vker
  rw [vrad_nan h]
  unfold kernel_n
  rw [safe_log_nan (by tauto), safe_log_nan (by tauto)]
  simp [safe_atan2_nan]

theorem taints_u : Taints (kernel_u (A := A)) := by
  intro x y z h
  unfold vker
  rw [vrad_nan h]
  unfold kernel_u
  rw [safe_log_nan (by tauto), safe_log_nan (by tauto)]
  simp [safe_atan2_nan]

theorem taints_ee : Taints (kernel_ee (A := A)) := by
  intro x y z h
  unfold vker
  rw [vrad_nan h]
  unfold kernel_ee
  simp [safe_atan2_nan]

theorem taints_nn : Taints (kernel_nn (A := A)) := by
  intro x y z h
  unfold vker
  rw [vrad_nan h]
  unfold kernel_nn
  simp [safe_atan2_nan]

theorem taints_uu : Taints (kernel_uu (A := A)) := by
  intro x y z h
  unfold vker
  rw [vrad_nan h]
  unfold kernel_uu
  simp [safe_atan2_nan]

theorem taints_en : Taints (kernel_en (A := A)) := by
  intro x y z h
  unfold vker
  rw [vrad_nan h]
  unfold kernel_en
  rw [safe_log_nan (by tauto)]
  simp

theorem taints_eu : Taints (kernel_eu (A := A)) := by
  intro x y z h
  unfold vker
  rw [vrad_nan h]
  unfold kernel_eu
  rw [safe_log_nan (by tauto)]
  simp

theorem taints_nu : Taints (kernel_nu (A := A)) := by
  intro x y z h
  unfold vker
  rw [vrad_nan h]
  unfold kernel_nu
  rw [safe_log_nan (by tauto)]
  simp

theorem taints_enu : Taints (kernel_enu (A := A)) := by
  intro x y z h
  unfold vker
  rw [vrad_nan h]
  unfold kernel_enu
  simp

/-- `_kernel_iij` with NaN in its first or second coordinate -/
theorem kernel_iij_nan {x y z : Fl A} (h : x = Fl.nan ∨ y = Fl.nan) :
    _kernel_iij x y z Fl.nan = .ok Fl.nan := by
  unfold _kernel_iij
  rcases h with rfl | rfl <;> simp

/-- `_kernel_iii` with NaN in its first coordinate -/
theorem kernel_iii_nan {y z : Fl A} : _kernel_iii Fl.nan y z Fl.nan = .ok Fl.nan := by
  unfold _kernel_iii
  simp

/-- at least one of three kernels is NaN as soon as one of the shifted coordinates is -/
def Taints3 (K1 K2 K3 : Kernel A) : Prop :=
  ∀ x y z : Fl A, (x = Fl.nan ∨ y = Fl.nan ∨ z = Fl.nan) →
    vker K1 x y z = .ok Fl.nan ∨ vker K2 x y z = .ok Fl.nan ∨ vker K3 x y z = .ok Fl.nan

theorem taints3_ee : Taints3 (kernel_eee (A := A)) kernel_een kernel_eeu := by
  intro x y z h
  unfold vker kernel_eee kernel_een kernel_eeu
  rw [vrad_nan h]
  rcases h with rfl | rfl | rfl
  · exact .inl kernel_iii_nan
  · exact .inr (.inl (kernel_iij_nan (.inr rfl)))
  · exact .inr (.inr (kernel_iij_nan (.inr rfl)))

theorem taints3_nn : Taints3 (kernel_enn (A := A)) kernel_nnn kernel_nnu := by
  intro x y z h
  unfold vker kernel_enn kernel_nnn kernel_nnu
  rw [vrad_nan h]
  rcases h with rfl | rfl | rfl
  · exact .inl (kernel_iij_nan (.inr rfl))
  · exact .inr (.inl kernel_iii_nan)
  · exact .inr (.inr (kernel_iij_nan (.inr rfl)))

theorem taints3_uu : Taints3 (kernel_euu (A := A)) kernel_nuu kernel_uuu := by
  intro x y z h
  unfold vker kernel_euu kernel_nuu kernel_uuu
  rw [vrad_nan h]
  rcases h with rfl | rfl | rfl
  · exact .inl (kernel_iij_nan (.inr rfl))
  · exact .inr (.inl (kernel_iij_nan (.inr rfl)))
  · exact .inr (.inr kernel_iii_nan)

theorem evaluate_nan {K : Kernel A} (hK : Taints K) {e n u w E s N b t : Fl A}
    (h : Fl.nan ∈ [e, n, u, w, E, s, N, b, t]) {v : Fl A}
    (hv : _evaluate_kernel e n u w E s N b t K = .ok v) : v = Fl.nan := by
  rw [evaluate_kernel_unroll] at hv
  simp only [Py.bind_ok, Py.pure_ok] at hv
  obtain ⟨k1, h1, k2, h2, k3, h3, k4, h4, k5, h5, k6, h6, k7, h7, k8, h8, rfl⟩ := hv
  have hf : ∀ {x y z k : Fl A}, vker K x y z = .ok k → (x = Fl.nan ∨ y = Fl.nan ∨ z = Fl.nan) →
      k = Fl.nan := by
    intro x y z k h1 h2
    rw [hK x y z h2] at h1
    cases h1; rfl
  simp only [List.mem_cons, List.not_mem_nil, or_false] at h
  rcases h with rfl | rfl | rfl | rfl | rfl | rfl | rfl | rfl | rfl
  · rw [hf h1 (by simp)]; simp
  · rw [hf h1 (by simp)]; simp
  · rw [hf h1 (by simp)]; simp
  · rw [hf h8 (by simp)]; simp
  · rw [hf h1 (by simp)]; simp
  · rw [hf h8 (by simp)]; simp
  · rw [hf h1 (by simp)]; simp
  · rw [hf h8 (by simp)]; simp
  · rw [hf h1 (by simp)]; simp

theorem component_nan {K1 K2 K3 : Kernel A} (hK : Taints3 K1 K2 K3)
    {e n u w E s N b t Me Mn Mu : Fl A}
    (h : Fl.nan ∈ [e, n, u, w, E, s, N, b, t, Me, Mn, Mu]) {v : Fl A}
    (hv : _calculate_component e n u w E s N b t Me Mn Mu K1 K2 K3 = .ok v) : v = Fl.nan := by
  rw [calculate_component_steps] at hv
  simp only [Py.bind_ok] at hv
  obtain ⟨a1, h1, a2, h2, a3, h3, a4, h4, a5, h5, a6, h6, a7, h7, h8⟩ := hv
  have hacc : ∀ {m : ℕ} {x y z a k : Fl A}, compStep m x y z Me Mn Mu K1 K2 K3 a = .ok k →
      a = Fl.nan → k = Fl.nan := by
    intro m x y z a k hk ha
    unfold compStep at hk
    simp only [Py.bind_ok, Py.pure_ok] at hk
    obtain ⟨k1, _, k2, _, k3, _, rfl⟩ := hk
    rw [ha]; simp
  have hf : ∀ {m : ℕ} {x y z a k : Fl A}, compStep m x y z Me Mn Mu K1 K2 K3 a = .ok k →
      (x = Fl.nan ∨ y = Fl.nan ∨ z = Fl.nan ∨ Me = Fl.nan ∨ Mn = Fl.nan ∨ Mu = Fl.nan) →
      k = Fl.nan := by
    intro m x y z a k hk hx
    unfold compStep at hk
    simp only [Py.bind_ok, Py.pure_ok] at hk
    obtain ⟨k1, hk1, k2, hk2, k3, hk3, rfl⟩ := hk
    by_cases hxyz : x = Fl.nan ∨ y = Fl.nan ∨ z = Fl.nan
    · rcases hK x y z hxyz with h | h | h
      · rw [h] at hk1; cases hk1; simp
      · rw [h] at hk2; cases hk2; simp
      · rw [h] at hk3; cases hk3; simp
    · have : Me = Fl.nan ∨ Mn = Fl.nan ∨ Mu = Fl.nan := by tauto
      rcases this with h | h | h <;> rw [h] <;> simp
  have hend : a1 = Fl.nan → v = Fl.nan := fun h =>
    hacc h8 (hacc h7 (hacc h6 (hacc h5 (hacc h4 (hacc h3 (hacc h2 h))))))
  simp only [List.mem_cons, List.not_mem_nil, or_false] at h
  rcases h with rfl | rfl | rfl | rfl | rfl | rfl | rfl | rfl | rfl | rfl | rfl | rfl
  · exact hend (hf h1 (by simp))
  · exact hend (hf h1 (by simp))
  · exact hend (hf h1 (by simp))
  · exact hf h8 (by simp)
  · exact hend (hf h1 (by simp))
  · exact hf h8 (by simp)
  · exact hend (hf h1 (by simp))
  · exact hf h8 (by simp)
  · exact hend (hf h1 (by simp))
  · exact hend (hf h1 (by simp))
  · exact hend (hf h1 (by simp))
  · exact hend (hf h1 (by simp))

end prism
end Choclo
