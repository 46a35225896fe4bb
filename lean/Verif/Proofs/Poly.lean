import Verif.Proofs.Exact

/-! Interval evaluation of Horner schemes, under both settings of `cfg(target_feature = "fma")`. -/

namespace Verif
open F64

/-- `mul_add` on intervals -/
def ivMulAdd (fma : Bool) (i j k : Iv) : Option Iv :=
  if fma then
    let r := i.fma j k
    if r.ok then some r else none
  else
    let p := i.mul j
    if p.ok then
      let r := p.add k
      if r.ok then some r else none
    else none

theorem mem_mulAdd [Cfg] {i j k r : Iv} {x y z : F64} (hi : i.ok = true) (hj : j.ok = true) (hk : k.ok = true)
    (hx : i.Mem x) (hy : j.Mem y) (hz : k.Mem z) (h : ivMulAdd Cfg.fma i j k = some r) :
    r.ok = true ∧ r.Mem (mulAdd x y z) := by
  unfold ivMulAdd at h
  unfold mulAdd
  cases hc : Cfg.fma
  · rw [hc] at h
    simp only [Bool.false_eq_true, if_false] at h ⊢
    split at h
    · rename_i hp
      split at h
      · rename_i hr
        cases h
        exact ⟨hr, Iv.mem_add hp hk (Iv.mem_mul hi hj hx hy) hz⟩
      · cases h
    · cases h
  · rw [hc] at h
    simp only [if_true] at h ⊢
    split at h
    · rename_i hr
      cases h
      exact ⟨hr, Iv.mem_fma hi hj hk hx hy hz⟩
    · cases h

/-- Horner scheme on intervals -/
def ivPoly (fma : Bool) (ix : Iv) : List F64 → Iv → Option Iv
  | [], acc => some acc
  | c :: cs, acc =>
    if c.isFin then
      match ivMulAdd fma acc ix (Iv.pt c) with
      | some r => ivPoly fma ix cs r
      | none => none
    else none

theorem mem_polyAux [Cfg] {ix : Iv} {x : F64} (hx : ix.ok = true) (mx : ix.Mem x) (cs : List F64) :
    ∀ (acc : F64) (ia r : Iv), ia.ok = true → ia.Mem acc → ivPoly Cfg.fma ix cs ia = some r →
      r.ok = true ∧ r.Mem (cs.foldl (fun acc c => mulAdd acc x c) acc) := by
  induction cs with
  | nil => intro acc ia r h1 h2 h3; unfold ivPoly at h3; cases h3; exact ⟨h1, h2⟩
  | cons c cs ih =>
    intro acc ia r h1 h2 h3
    unfold ivPoly at h3
    split at h3
    · rename_i hc
      split at h3
      · rename_i r' hr'
        have hpt : (Iv.pt c).ok = true := by rw [Iv.ok_iff]; exact ⟨hc, hc⟩
        obtain ⟨o1, o2⟩ := mem_mulAdd h1 hx hpt h2 mx (Iv.mem_pt c) hr'
        exact ih _ _ _ o1 o2 h3
      · cases h3
    · cases h3

/-- the interval test used for concrete coefficient lists -/
def ivPolyIn (fma : Bool) (ix : Iv) (cs : List F64) (out : Iv) : Bool :=
  match ivPoly fma ix cs (Iv.pt 0.0) with
  | some r => r.sub' out
  | none => false

theorem mem_polynomial [Cfg] {ix out : Iv} {x : F64} (cs : List F64)
    (h : ∀ b, ivPolyIn b ix cs out = true) (hx : ix.ok = true) (mx : ix.Mem x) : out.Mem (polynomial x cs) := by
  have h' := h Cfg.fma
  unfold ivPolyIn at h'
  split at h'
  · rename_i r hr
    have := mem_polyAux hx mx cs 0.0 (Iv.pt 0.0) r (by decide +kernel) (Iv.mem_pt _) hr
    exact Iv.mem_sub' h' this.2
  · cases h'

end Verif
