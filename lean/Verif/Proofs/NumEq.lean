import Verif.Proofs.Dawson

/-! # Equality as numbers (the sign of zero and the payload of NaN are ignored) -/

namespace Verif
namespace F64

/-- equal as numbers (`==`), or both NaN -/
def NumEq (a b : F64) : Prop := (a.isNaN = true ∧ b.isNaN = true) ∨ (a.isNaN = false ∧ b.isNaN = false ∧ a.val = b.val)

theorem NumEq.refl (a : F64) : NumEq a a := by
  unfold NumEq; cases a.isNaN <;> simp

theorem NumEq.symm {a b : F64} (h : NumEq a b) : NumEq b a := by
  rcases h with ⟨h1, h2⟩ | ⟨h1, h2, h3⟩
  · exact Or.inl ⟨h2, h1⟩
  · exact Or.inr ⟨h2, h1, h3.symm⟩

theorem NumEq.trans {a b c : F64} (h : NumEq a b) (g : NumEq b c) : NumEq a c := by
  rcases h with ⟨h1, h2⟩ | ⟨h1, h2, h3⟩
  · rcases g with ⟨g1, g2⟩ | ⟨g1, g2, g3⟩
    · exact Or.inl ⟨h1, g2⟩
    · rw [g1] at h2; cases h2
  · rcases g with ⟨g1, g2⟩ | ⟨g1, g2, g3⟩
    · rw [g1] at h2; cases h2
    · exact Or.inr ⟨h1, g2, h3.trans g3⟩

theorem Same.numEq {a b : F64} (h : Same a b) : NumEq a b := by
  rcases h with rfl | h
  · exact NumEq.refl _
  · exact Or.inl h

theorem NumEq.neg {a b : F64} (h : NumEq a b) : NumEq (-a) (-b) := by
  rcases h with ⟨h1, h2⟩ | ⟨h1, h2, h3⟩
  · exact Or.inl ⟨by simpa using h1, by simpa using h2⟩
  · exact Or.inr ⟨by simpa using h1, by simpa using h2, by rw [val_neg, val_neg, h3]⟩

/-- number-equal means bit-equal, or two zeros, or two NaNs -/
theorem NumEq.cases {a b : F64} (h : NumEq a b) : a = b ∨ (a.isZero = true ∧ b.isZero = true) ∨ (a.isNaN = true ∧ b.isNaN = true) := by
  rcases h with h | ⟨h1, h2, h3⟩
  · exact Or.inr (Or.inr h)
  · by_cases hz : a.val = 0
    · exact Or.inr (Or.inl ⟨val_eq_zero.1 hz, val_eq_zero.1 (h3 ▸ hz)⟩)
    · exact Or.inl (eq_of_val_ne h3 hz)

theorem numEq_add_left {a a' : F64} (h : NumEq a a') (b : F64) : NumEq (a + b) (a' + b) := by
  rcases h.cases with rfl | ⟨h1, h2⟩ | ⟨h1, h2⟩
  · exact NumEq.refl _
  · have f1 := isZero_fin h1
    have f2 := isZero_fin h2
    rcases cases3 b with hb | hb | hb
    · rw [add_nan_right hb, add_nan_right hb]; exact NumEq.refl _
    · rw [add_inf_right f1 hb, add_inf_right f2 hb]; exact NumEq.refl _
    · have s1 := add_spec f1 hb
      have s2 := add_spec f2 hb
      exact Or.inr ⟨s1.1, s2.1, by rw [s1.2, s2.2, val_eq_zero.2 h1, val_eq_zero.2 h2]⟩
  · rw [add_nan_left h1, add_nan_left h2]; exact NumEq.refl _

theorem NumEq.add {a a' b b' : F64} (h : NumEq a a') (g : NumEq b b') : NumEq (a + b) (a' + b') :=
  (numEq_add_left h b).trans (by rw [add_comm' (a := a') (b := b), add_comm' (a := a') (b := b')]; exact numEq_add_left g a')

theorem NumEq.sub {a a' b b' : F64} (h : NumEq a a') (g : NumEq b b') : NumEq (a - b) (a' - b') := by
  rw [sub_eq, sub_eq]; exact h.add g.neg

theorem numEq_mul_left {a a' : F64} (h : NumEq a a') (b : F64) : NumEq (a * b) (a' * b) := by
  rcases h.cases with rfl | ⟨h1, h2⟩ | ⟨h1, h2⟩
  · exact NumEq.refl _
  · have f1 := isZero_fin h1
    have f2 := isZero_fin h2
    rcases cases3 b with hb | hb | hb
    · rw [mul_nan_right hb, mul_nan_right hb]; exact NumEq.refl _
    · rw [mul_inf_zero (Or.inr ⟨h1, hb⟩), mul_inf_zero (Or.inr ⟨h2, hb⟩)]; exact NumEq.refl _
    · have s1 := mul_spec f1 hb
      have s2 := mul_spec f2 hb
      exact Or.inr ⟨s1.1, s2.1, by rw [s1.2.1, s2.2.1, val_eq_zero.2 h1, val_eq_zero.2 h2]⟩
  · rw [mul_nan_left h1, mul_nan_left h2]; exact NumEq.refl _

theorem NumEq.mul {a a' b b' : F64} (h : NumEq a a') (g : NumEq b b') : NumEq (a * b) (a' * b') :=
  (numEq_mul_left h b).trans (by rw [mul_comm' a' b, mul_comm' a' b']; exact numEq_mul_left g a')

theorem numEq_neg_mul (a b : F64) : NumEq (-a * b) (-(a * b)) := (mul_neg_left_same a b).numEq
theorem numEq_mul_neg (a b : F64) : NumEq (a * -b) (-(a * b)) := (mul_neg_right_same a b).numEq

/-- `(-a) + (-b) = -(a + b)` as numbers -/
theorem numEq_neg_add (a b : F64) : NumEq (-a + -b) (-(a + b)) := by
  rcases cases3 a with ha | ha | ha
  · rw [add_nan_left ha, add_nan_left (by simpa using ha)]; exact Or.inl ⟨by decide, by decide⟩
  · rcases cases3 b with hb | hb | hb
    · rw [add_nan_right hb, add_nan_right (by simpa using hb)]; exact Or.inl ⟨by decide, by decide⟩
    · by_cases h : a.neg = b.neg
      · rw [add_inf_left ha (isInf_notNaN hb) (fun _ => h), add_inf_left (by simpa using ha) (by simpa using isInf_notNaN hb) (fun _ => by simp [h])]
        exact NumEq.refl _
      · rw [add_inf_nan ha hb h, add_inf_nan (by simpa using ha) (by simpa using hb) (by simpa using h)]
        exact Or.inl ⟨by decide, by decide⟩
    · rw [add_inf_left ha (isFin_notNaN hb) (by rw [isFin_notInf hb]; simp),
        add_inf_left (by simpa using ha) (by simpa using isFin_notNaN hb) (by rw [isInf_neg, isFin_notInf hb]; simp)]
      exact NumEq.refl _
  · rcases cases3 b with hb | hb | hb
    · rw [add_nan_right hb, add_nan_right (by simpa using hb)]; exact Or.inl ⟨by decide, by decide⟩
    · rw [add_inf_right ha hb, add_inf_right (by simpa using ha) (by simpa using hb)]; exact NumEq.refl _
    · have s1 := add_spec ha hb
      have s2 := add_spec (a := -a) (b := -b) (by simpa using ha) (by simpa using hb)
      refine Or.inr ⟨s2.1, by simpa using s1.1, ?_⟩
      rw [s2.2, val_neg, val_neg, val_neg, s1.2, ← RN_neg]; congr 1; ring

/-- `(-a) - (-b) = -(a - b)` as numbers -/
theorem numEq_neg_sub (a b : F64) : NumEq (-a - -b) (-(a - b)) := by
  rw [sub_eq, sub_eq]; exact numEq_neg_add a (-b)

/-- the definition of division, with its conditions as parameters -/
def divAux (c1 c2 c3 c4 c5 s : Bool) (n d : ℕ) : F64 :=
  if c1 then nan else if c2 then (if c3 then nan else sinf s) else if c3 then szero s
  else if c4 then (if c5 then nan else sinf s) else mk' s n d

theorem mk'_flip (s : Bool) (n d : ℕ) : mk' (!s) n d = -(mk' s n d) := by
  rw [mk'_eq, mk'_eq]; rfl

theorem divAux_neg (c1 c2 c3 c4 c5 s : Bool) (n d : ℕ) : Same (divAux c1 c2 c3 c4 c5 (!s) n d) (-(divAux c1 c2 c3 c4 c5 s n d)) := by
  cases c1 <;> cases c2 <;> cases c3 <;> cases c4 <;> cases c5 <;> first | exact Or.inr ⟨rfl, rfl⟩ | exact Or.inl (mk'_flip s n d) | exact Or.inl rfl

theorem div_aux (a b : F64) : a / b = divAux (a.isNaN || b.isNaN) a.isInf b.isInf b.isZero a.isZero (a.neg != b.neg) (a.um * 2^1074) b.um := rfl

theorem div_neg_left_same (a b : F64) : Same (-a / b) (-(a / b)) := by
  rw [div_aux (-a) b, div_aux a b]
  have e : ((-a).neg != b.neg) = !(a.neg != b.neg) := by show ((!a.neg) != b.neg) = _; cases a.neg <;> cases b.neg <;> rfl
  rw [e]; exact divAux_neg _ _ _ _ _ _ _ _

theorem div_neg_right_same (a b : F64) : Same (a / -b) (-(a / b)) := by
  rw [div_aux a (-b), div_aux a b]
  have e : (a.neg != (-b).neg) = !(a.neg != b.neg) := by show (a.neg != !b.neg) = _; cases a.neg <;> cases b.neg <;> rfl
  rw [e]; exact divAux_neg _ _ _ _ _ _ _ _

/-- division by number-equal denominators, when they are not zero -/
theorem numEq_div_right {b b' : F64} (h : NumEq b b') (hz : b.isZero = false) (a : F64) : NumEq (a / b) (a / b') := by
  rcases h.cases with rfl | ⟨h1, _⟩ | ⟨h1, h2⟩
  · exact NumEq.refl _
  · rw [hz] at h1; cases h1
  · rw [div_nan_right h1, div_nan_right h2]; exact NumEq.refl _

end F64
end Verif
