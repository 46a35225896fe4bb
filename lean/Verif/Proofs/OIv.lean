import Verif.Proofs.Interval
import Verif.Proofs.Exact

/-!
# Unconditional interval evaluation

`OIv` is an interval or "no information".  Operations return "no information" when a side condition fails, so that `Encl` (membership) is preserved
without hypotheses and straight-line code can be bounded by evaluating the same expression on intervals.
-/

namespace Verif
open F64

structure OIv where
  o : Option Iv

namespace OIv

def chk (i : Iv) : OIv := ⟨if i.ok then some i else none⟩
def pt (c : F64) : OIv := chk (Iv.pt c)
def mk2 (l h : F64) : OIv := chk ⟨l, h⟩

def bin (f : Iv → Iv → Iv) : OIv → OIv → OIv
  | ⟨some i⟩, ⟨some j⟩ => chk (f i j)
  | _, _ => ⟨none⟩

/-- divisor certainly non-zero -/
def nz (j : Iv) : Bool := F64.lt 0.0 j.lo || F64.lt j.hi 0.0

def divO : OIv → OIv → OIv
  | ⟨some i⟩, ⟨some j⟩ => if nz j then chk (i.div j) else ⟨none⟩
  | _, _ => ⟨none⟩

def negO : OIv → OIv
  | ⟨some i⟩ => chk i.neg
  | _ => ⟨none⟩

def fmaO : OIv → OIv → OIv → OIv
  | ⟨some i⟩, ⟨some j⟩, ⟨some k⟩ => chk (i.fma j k)
  | _, _, _ => ⟨none⟩

instance : Add OIv := ⟨bin Iv.add⟩
instance : Sub OIv := ⟨bin Iv.sub⟩
instance : Mul OIv := ⟨bin Iv.mul⟩
instance : Div OIv := ⟨divO⟩
instance : Neg OIv := ⟨negO⟩
instance : OfScientific OIv := ⟨fun m s e => pt (OfScientific.ofScientific m s e)⟩

/-- contained in `[l, h]` -/
def inside (x : OIv) (l h : F64) : Bool :=
  match x.o with
  | some i => i.sub' ⟨l, h⟩
  | none => false

/-- membership -/
def Encl (I : OIv) (x : F64) : Prop := ∀ i, I.o = some i → i.ok = true ∧ i.Mem x

theorem rel_none (x : F64) : Encl ⟨none⟩ x := fun _ h => by cases h

theorem rel_chk {i : Iv} {x : F64} (h : i.Mem x) : Encl (chk i) x := by
  intro j hj
  unfold chk at hj
  simp only at hj
  split at hj
  · rename_i ho; cases hj; exact ⟨ho, h⟩
  · cases hj

theorem rel_pt (c : F64) : Encl (pt c) c := rel_chk (Iv.mem_pt c)
theorem rel_mk2 {l h x : F64} (h1 : l.val ≤ x.val) (h2 : x.val ≤ h.val) : Encl (mk2 l h) x := rel_chk ⟨h1, h2⟩
theorem rel_lit (m : Nat) (s : Bool) (e : Nat) : Encl (OfScientific.ofScientific m s e : OIv) (OfScientific.ofScientific m s e : F64) := rel_pt _

theorem rel_bin {f : Iv → Iv → Iv} {g : F64 → F64 → F64}
    (hf : ∀ i j x y, i.ok = true → j.ok = true → i.Mem x → j.Mem y → (f i j).Mem (g x y))
    {I J : OIv} {x y : F64} (h1 : Encl I x) (h2 : Encl J y) : Encl (bin f I J) (g x y) := by
  rcases I with ⟨_ | i⟩
  · exact rel_none _
  rcases J with ⟨_ | j⟩
  · exact rel_none _
  obtain ⟨a1, a2⟩ := h1 i rfl
  obtain ⟨b1, b2⟩ := h2 j rfl
  exact rel_chk (hf i j x y a1 b1 a2 b2)

theorem rel_add {I J : OIv} {x y : F64} (h1 : Encl I x) (h2 : Encl J y) : Encl (I + J) (x + y) :=
  rel_bin (fun _ _ _ _ => Iv.mem_add) h1 h2
theorem rel_sub {I J : OIv} {x y : F64} (h1 : Encl I x) (h2 : Encl J y) : Encl (I - J) (x - y) :=
  rel_bin (fun _ _ _ _ => Iv.mem_sub) h1 h2
theorem rel_mul {I J : OIv} {x y : F64} (h1 : Encl I x) (h2 : Encl J y) : Encl (I * J) (x * y) :=
  rel_bin (fun _ _ _ _ => Iv.mem_mul) h1 h2

theorem rel_div {I J : OIv} {x y : F64} (h1 : Encl I x) (h2 : Encl J y) : Encl (I / J) (x / y) := by
  show Encl (divO I J) (x / y)
  rcases I with ⟨_ | i⟩
  · exact rel_none _
  rcases J with ⟨_ | j⟩
  · exact rel_none _
  obtain ⟨a1, a2⟩ := h1 i rfl
  obtain ⟨b1, b2⟩ := h2 j rfl
  show Encl (if nz j = true then chk (i.div j) else ⟨none⟩) _
  split
  · rename_i hz
    unfold nz at hz
    rw [Bool.or_eq_true] at hz
    exact rel_chk (Iv.mem_div a1 b1 hz a2 b2)
  · exact rel_none _

theorem rel_neg {I : OIv} {x : F64} (h1 : Encl I x) : Encl (-I) (-x) := by
  show Encl (negO I) (-x)
  rcases I with ⟨_ | i⟩
  · exact rel_none _
  exact rel_chk (Iv.mem_neg (h1 i rfl).2)

theorem rel_fma {I J K : OIv} {x y z : F64} (h1 : Encl I x) (h2 : Encl J y) (h3 : Encl K z) : Encl (fmaO I J K) (F64.fma x y z) := by
  rcases I with ⟨_ | i⟩
  · exact rel_none _
  rcases J with ⟨_ | j⟩
  · exact rel_none _
  rcases K with ⟨_ | k⟩
  · exact rel_none _
  obtain ⟨a1, a2⟩ := h1 i rfl
  obtain ⟨b1, b2⟩ := h2 j rfl
  obtain ⟨c1, c2⟩ := h3 k rfl
  exact rel_chk (Iv.mem_fma a1 b1 c1 a2 b2 c2)

theorem rel_inside {I : OIv} {x l h : F64} (hr : Encl I x) (hi : I.inside l h = true) : x.isFin = true ∧ l.val ≤ x.val ∧ x.val ≤ h.val := by
  rcases I with ⟨_ | i⟩
  · cases hi
  obtain ⟨a1, a2⟩ := hr i rfl
  exact ⟨a2.fin a1, Iv.mem_sub' hi a2⟩

/-- `mul_add` under a given fma setting -/
def mulAddO (fma : Bool) (I J K : OIv) : OIv := if fma then fmaO I J K else I * J + K

theorem rel_mulAdd [Cfg] {I J K : OIv} {x y z : F64} (h1 : Encl I x) (h2 : Encl J y) (h3 : Encl K z) :
    Encl (mulAddO Cfg.fma I J K) (mulAdd x y z) := by
  unfold mulAddO mulAdd
  cases Cfg.fma
  · exact rel_add (rel_mul h1 h2) h3
  · exact rel_fma h1 h2 h3

/-- `polynomial` (Horner) -/
def polyO (fma : Bool) (x : OIv) (cs : List F64) : OIv := cs.foldl (fun acc c => mulAddO fma acc x (pt c)) (pt 0.0)

theorem rel_foldl_mulAdd [Cfg] {I : OIv} {x : F64} (h : Encl I x) (cs : List F64) : ∀ (A : OIv) (acc : F64), Encl A acc →
    Encl (cs.foldl (fun acc c => mulAddO Cfg.fma acc I (pt c)) A) (cs.foldl (fun acc c => mulAdd acc x c) acc) := by
  induction cs with
  | nil => intro A acc h; exact h
  | cons c cs ih => intro A acc hA; exact ih _ _ (rel_mulAdd hA h (rel_pt c))

theorem rel_polynomial [Cfg] {I : OIv} {x : F64} (h : Encl I x) (cs : List F64) : Encl (polyO Cfg.fma I cs) (polynomial x cs) :=
  rel_foldl_mulAdd h cs _ _ (rel_pt _)

/-! ## subdivision -/

/-- `f` holds on every consecutive pair -/
def cover (f : F64 → F64 → Bool) : List F64 → Bool
  | a :: b :: l => f a b && cover f (b :: l)
  | _ => true

theorem cover_spec {f : F64 → F64 → Bool} {x : F64} : ∀ (l : List F64) (a : F64), cover f (a :: l) = true → a.val ≤ x.val →
    x.val ≤ ((a :: l).getLast (List.cons_ne_nil _ _)).val → x.val = a.val ∨ ∃ b c, f b c = true ∧ b.val ≤ x.val ∧ x.val ≤ c.val := by
  intro l
  induction l with
  | nil => intro a _ h1 h2; left; exact le_antisymm h2 h1
  | cons b l ih =>
    intro a hc h1 h2
    unfold cover at hc
    rw [Bool.and_eq_true] at hc
    rcases le_total x.val b.val with h | h
    · exact Or.inr ⟨a, b, hc.1, h1, h⟩
    · rcases ih b hc.2 h (by rwa [List.getLast_cons (List.cons_ne_nil _ _)] at h2) with h3 | h3
      · exact Or.inr ⟨a, b, hc.1, h1, h3.le⟩
      · exact Or.inr h3

/-- a list of break points with at least one interval covers everything between its ends -/
theorem cover_two {f : F64 → F64 → Bool} {x a b : F64} {l : List F64} (hc : cover f (a :: b :: l) = true) (h1 : a.val ≤ x.val)
    (h2 : x.val ≤ ((a :: b :: l).getLast (List.cons_ne_nil _ _)).val) : ∃ b c, f b c = true ∧ b.val ≤ x.val ∧ x.val ≤ c.val := by
  have hc' := hc
  unfold cover at hc'
  rw [Bool.and_eq_true] at hc'
  rcases le_total x.val b.val with h | h
  · exact ⟨a, b, hc'.1, h1, h⟩
  · rcases cover_spec l b hc'.2 h (by rwa [List.getLast_cons (List.cons_ne_nil _ _)] at h2) with h3 | h3
    · exact ⟨a, b, hc'.1, h1, h3.le⟩
    · exact h3

end OIv
end Verif
