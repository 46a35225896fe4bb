import Verif.Model.Cache
import Verif.Proofs.Bits
import Mathlib.Data.List.Nodup
import Mathlib.Data.List.Perm.Basic
import Mathlib.Data.Set.Card

/-! Helper lemmas for the cache properties. -/

namespace Verif
namespace Cache
variable {V : Type}

/-- entries have pairwise different keys -/
def Wf (c : Cache V) : Prop := (c.entries.map Prod.fst).Nodup

theorem keyOf_inj {a b a' b' : F64} : keyOf a b = keyOf a' b' ↔ a = a' ∧ b = b' := by
  unfold keyOf
  rw [Prod.mk.injEq]
  exact ⟨fun h => ⟨F64.toBits_injective h.1, F64.toBits_injective h.2⟩, fun h => by rw [h.1, h.2]; exact ⟨rfl, rfl⟩⟩

theorem keyOf_ofBits (k : Key) : keyOf (F64.ofBits k.1) (F64.ofBits k.2) = k := by
  unfold keyOf; rw [F64.toBits_ofBits, F64.toBits_ofBits]

theorem find_some {l : List (Key × V)} (h : (l.map Prod.fst).Nodup) (k : Key) (v : V) :
    (l.find? (fun e => e.1 == k)).map Prod.snd = some v ↔ (k, v) ∈ l := by
  induction l with
  | nil => simp
  | cons e es ih =>
    rw [List.map_cons, List.nodup_cons] at h
    rw [List.find?_cons]
    by_cases hk : e.1 = k
    · subst hk
      simp only [beq_self_eq_true, Option.map_some, Option.some.injEq, List.mem_cons]
      constructor
      · intro hv; left; rw [← hv]
      · rintro (hv | hv)
        · rw [← hv]
        · exact absurd (List.mem_map_of_mem (f := Prod.fst) hv) h.1
    · have : (e.1 == k) = false := by simpa using hk
      rw [this]
      simp only [List.mem_cons]
      rw [ih h.2]
      constructor
      · exact Or.inr
      · rintro (hv | hv)
        · exact absurd (by rw [← hv]) hk
        · exact hv

theorem lookup_iff {c : Cache V} (h : Wf c) (k : Key) (v : V) : c.lookupKey k = some v ↔ (k, v) ∈ c.entries :=
  find_some h k v

theorem get_iff {c : Cache V} (h : Wf c) (nu x : F64) (v : V) : c.get nu x = some v ↔ (keyOf nu x, v) ∈ c.entries :=
  find_some h _ v

theorem lookup_none {c : Cache V} (k : Key) : c.lookupKey k = none ↔ k ∉ c.entries.map Prod.fst := by
  unfold lookupKey
  rw [Option.map_eq_none_iff, List.find?_eq_none]
  simp only [beq_iff_eq, List.mem_map, not_exists, not_and]

theorem any_iff {c : Cache V} (k : Key) : c.entries.any (fun e => e.1 == k) = true ↔ k ∈ c.entries.map Prod.fst := by
  rw [List.any_eq_true]; simp only [beq_iff_eq, List.mem_map]

/-- after a miss the new entry is put in front -/
theorem call_miss_ok {f : F64 → F64 → M V} {c : Cache V} {nu x : F64} {v : V} (h : c.get nu x = none) (hf : f nu x = .ok v) :
    call f c nu x = (.ok v, ⟨(keyOf nu x, v) :: c.entries⟩) := by
  have hn : ¬ (c.entries.any (fun e => e.1 == keyOf nu x) = true) := by
    rw [any_iff]; exact (lookup_none _).1 h
  unfold call
  rw [h]; simp only [hf]
  unfold insertKey
  rw [if_neg hn]

theorem call_miss_err {f : F64 → F64 → M V} {c : Cache V} {nu x : F64} {e : Err} (h : c.get nu x = none) (hf : f nu x = .error e) :
    call f c nu x = (.error e, c) := by
  unfold call; rw [h]; simp only [hf]

theorem call_hit {f : F64 → F64 → M V} {c : Cache V} {nu x : F64} {v : V} (h : c.get nu x = some v) :
    call f c nu x = (.ok v, c) := by
  unfold call; rw [h]

theorem call_wf (f : F64 → F64 → M V) {c : Cache V} (h : Wf c) (nu x : F64) : Wf (call f c nu x).2 := by
  cases hg : c.get nu x with
  | some v => rw [call_hit hg]; exact h
  | none =>
    cases hf : f nu x with
    | error e => rw [call_miss_err hg hf]; exact h
    | ok v =>
      rw [call_miss_ok hg hf]
      show (List.map Prod.fst ((keyOf nu x, v) :: c.entries)).Nodup
      rw [List.map_cons, List.nodup_cons]
      exact ⟨(lookup_none _).1 hg, h⟩

theorem call_get (f : F64 → F64 → M V) {c : Cache V} (nu x nu' x' : F64) :
    (call f c nu x).2.get nu' x' = if nu' = nu ∧ x' = x then (match c.get nu x with
      | some v => some v
      | none => (match f nu x with | .ok v => some v | .error _ => none)) else c.get nu' x' := by
  cases hg : c.get nu x with
  | some v =>
    rw [call_hit hg]
    split
    · rename_i h; rw [h.1, h.2, hg]
    · rfl
  | none =>
    cases hf : f nu x with
    | error e =>
      rw [call_miss_err hg hf]
      split
      · rename_i h; rw [h.1, h.2, hg]
      · rfl
    | ok v =>
      rw [call_miss_ok hg hf]
      show (List.find? _ ((keyOf nu x, v) :: c.entries)).map Prod.snd = _
      rw [List.find?_cons]
      split
      · rename_i h
        rw [beq_iff_eq] at h
        rw [if_pos]; · rfl
        have := keyOf_inj.1 h
        exact ⟨this.1.symm, this.2.symm⟩
      · rename_i h
        rw [if_neg]; · rfl
        rintro ⟨rfl, rfl⟩
        simp at h

variable {σ : Type}

theorem retainGo_sub (f : σ → F64 × F64 → V → Option Bool × σ) (s : σ) (l : List (Key × V)) :
    (retainGo f s l).2.2.Sublist l := by
  induction l generalizing s with
  | nil => simp [retainGo]
  | cons e es ih =>
    unfold retainGo
    split
    · exact List.Sublist.refl _
    · rename_i b s' _
      simp only
      cases b
      · exact List.Sublist.cons _ (ih s')
      · exact List.Sublist.cons_cons _ (ih s')

theorem retain_wf {order : List (Key × V) → List (Key × V)} (ho : ∀ l, (order l).Perm l)
    (f : σ → F64 × F64 → V → Option Bool × σ) (s : σ) {c : Cache V} (h : Wf c) : Wf (retain order f s c).2.2 := by
  unfold retain Wf
  simp only
  have h1 : ((order c.entries).map Prod.fst).Nodup := ((ho c.entries).map Prod.fst).nodup_iff.2 h
  exact h1.sublist ((retainGo_sub f s (order c.entries)).map _)

end Cache
end Verif
