import Verif.Spec
import Verif.Proofs.Cache

/-!
# Properties of the caches: C52–C57, C65

The theorems hold for an arbitrary function `f : F64 → F64 → M V`; the four cache types of the crate are the instances
`f = besseljy, besselik, JnuYnu, InuKnu` (see the corollaries).  What a user can observe of a cache is `get`, `contains`, `len`,
`is_empty` and the outcome of calls; all statements are in terms of these.
-/

namespace Verif
namespace Cache
variable {V : Type}

/-- The states a cache of `f` can be in: any history of constructors and operations, with any order of visits and any stateful,
possibly panicking predicate in `retain`. -/
inductive Reachable (f : F64 → F64 → M V) : Cache V → Prop
  | new : Reachable f Cache.new
  | withCapacity (n : Nat) : Reachable f (Cache.withCapacity n)
  | call {c : Cache V} (nu x : F64) : Reachable f c → Reachable f (Cache.call f c nu x).2
  | clear {c : Cache V} : Reachable f c → Reachable f c.clear
  | shrinkToFit {c : Cache V} : Reachable f c → Reachable f c.shrinkToFit
  | reserve {c : Cache V} (n : Nat) : Reachable f c → Reachable f (c.reserve n)
  | retain {c : Cache V} {σ : Type} (order : List (Key × V) → List (Key × V)) (_ : ∀ l, (order l).Perm l)
      (p : σ → F64 × F64 → V → Option Bool × σ) (s : σ) : Reachable f c → Reachable f (Cache.retain order p s c).2.2

theorem Reachable.wf {f : F64 → F64 → M V} {c : Cache V} (h : Reachable f c) : Wf c := by
  induction h with
  | new => exact List.nodup_nil
  | withCapacity n => exact List.nodup_nil
  | call nu x _ ih => exact call_wf f ih nu x
  | clear _ _ => exact List.nodup_nil
  | shrinkToFit _ ih => exact ih
  | reserve n _ ih => exact ih
  | retain order ho p s _ ih => exact retain_wf ho p s ih

/-! ## C53 only true values -/

theorem Reachable.entries_true {f : F64 → F64 → M V} {c : Cache V} (h : Reachable f c) :
    ∀ e ∈ c.entries, f (F64.ofBits e.1.1) (F64.ofBits e.1.2) = .ok e.2 := by
  induction h with
  | new => intro e he; exact absurd he (by simp [Cache.new])
  | withCapacity n => intro e he; exact absurd he (by simp [Cache.withCapacity])
  | @call c nu x hc ih =>
    cases hg : c.get nu x with
    | some v => rw [call_hit hg]; exact ih
    | none =>
      cases hf : f nu x with
      | error e => rw [call_miss_err hg hf]; exact ih
      | ok v =>
        rw [call_miss_ok hg hf]
        intro e he
        rcases List.mem_cons.1 he with rfl | he
        · simp only [keyOf, F64.ofBits_toBits]; exact hf
        · exact ih e he
  | clear _ _ => intro e he; exact absurd he (by simp [Cache.clear])
  | shrinkToFit _ ih => exact ih
  | reserve n _ ih => exact ih
  | retain order ho p s _ ih =>
    intro e he
    exact ih e ((ho _).mem_iff.1 ((retainGo_sub p s _).subset he))

/-- C53: whatever the history, a value found in the cache is the uncached function's result at exactly these arguments. -/
theorem cache_holds_true_values {f : F64 → F64 → M V} {c : Cache V} (h : Reachable f c) (nu x : F64) (v : V)
    (hg : c.get nu x = some v) : f nu x = .ok v := by
  have := h.entries_true _ ((get_iff h.wf nu x v).1 hg)
  simpa only [keyOf, F64.ofBits_toBits] using this

/-! ## C52 transparency -/

/-- C52: whatever the history, a cached call has the same outcome (value or panic) as the uncached function. -/
theorem cache_transparent {f : F64 → F64 → M V} {c : Cache V} (h : Reachable f c) (nu x : F64) :
    (Cache.call f c nu x).1 = f nu x := by
  cases hg : c.get nu x with
  | some v => rw [call_hit hg, cache_holds_true_values h nu x v hg]
  | none =>
    cases hf : f nu x with
    | error e => rw [call_miss_err hg hf]
    | ok v => rw [call_miss_ok hg hf]

/-- a non-trivial reachable state: two calls and a `retain` in between -/
example (f : F64 → F64 → M V) : Reachable f
    (Cache.call f (Cache.retain (σ := Unit) (fun l => l.reverse) (fun s a _ => (some (a.1.lt 2.0), s)) ()
      (Cache.call f Cache.new 1.5 2.0).2).2.2 0.5 (-0.0)).2 :=
  .call _ _ (.retain _ (fun l => l.reverse_perm) _ _ (.call _ _ .new))

/-! ## C54 keys are exact bit patterns -/

/-- C54: a cached call changes what is stored at its own argument bits only; at those it stores the result if there was none. -/
theorem cache_call_get (f : F64 → F64 → M V) (c : Cache V) (nu x nu' x' : F64) :
    (¬ (nu' = nu ∧ x' = x) → (Cache.call f c nu x).2.get nu' x' = c.get nu' x') ∧
    (∀ v, c.get nu x = some v → (Cache.call f c nu x).2.get nu x = some v) ∧
    (∀ v, c.get nu x = none → f nu x = .ok v → (Cache.call f c nu x).2.get nu x = some v) := by
  refine ⟨fun h => ?_, fun v h => ?_, fun v h hf => ?_⟩
  · rw [call_get, if_neg h]
  · rw [call_get, if_pos ⟨rfl, rfl⟩, h]
  · rw [call_get, if_pos ⟨rfl, rfl⟩, h]; simp only [hf]

/-- C54: a value computed for one pair of bit patterns is never found under another: starting from an empty cache, only that pair
is present after a call. -/
theorem cache_key_exact (f : F64 → F64 → M V) (nu x nu' x' : F64) (v : V)
    (h : (Cache.call f Cache.new nu x).2.get nu' x' = some v) :
    nu'.toBits = nu.toBits ∧ x'.toBits = x.toBits ∧ f nu x = .ok v := by
  by_cases he : nu' = nu ∧ x' = x
  · refine ⟨by rw [he.1], by rw [he.2], ?_⟩
    obtain ⟨rfl, rfl⟩ := he
    rw [call_get, if_pos ⟨rfl, rfl⟩] at h
    simp only [Cache.new, Cache.get, Cache.lookupKey, List.find?_nil, Option.map_none] at h
    cases hf : f nu' x' with
    | ok w => rw [hf] at h; simpa using h
    | error e => rw [hf] at h; simp at h
  · rw [(cache_call_get f _ nu x nu' x').1 he] at h
    simp [Cache.new, Cache.get, Cache.lookupKey] at h

/-- C54: `+0.0` and `-0.0` compare equal but are different keys, and so are two NaNs with different payloads. -/
theorem cache_zero_keys_differ (f : F64 → F64 → M V) (nu : F64) :
    (0.0 : F64).eq (-0.0) = true ∧ (Cache.call f Cache.new nu 0.0).2.get nu (-0.0) = none := by
  refine ⟨by decide +kernel, ?_⟩
  rw [(cache_call_get f _ _ _ _ _).1]
  · rfl
  · intro h; exact absurd h.2 (by decide +kernel)

theorem cache_nan_keys_differ (f : F64 → F64 → M V) (nu a b : F64) (_ha : a.isNaN = true) (_hb : b.isNaN = true)
    (hab : a.toBits ≠ b.toBits) : (Cache.call f Cache.new nu a).2.get nu b = none := by
  rw [(cache_call_get f _ _ _ _ _).1]
  · rfl
  · intro h; exact hab (by rw [h.2])

example : (⟨false, 0x7ff8000000000001, by decide⟩ : F64).isNaN = true ∧ (⟨false, 0x7ff8000000000000, by decide⟩ : F64).isNaN = true ∧
    (⟨false, 0x7ff8000000000001, by decide⟩ : F64).toBits ≠ (⟨false, 0x7ff8000000000000, by decide⟩ : F64).toBits := by decide +kernel

/-! ## C55 size accounting -/

/-- C55: `len()` is the number of argument pairs for which `get` finds a value. -/
theorem cache_len {f : F64 → F64 → M V} {c : Cache V} (h : Reachable f c) :
    c.len = Set.ncard {p : F64 × F64 | (c.get p.1 p.2).isSome} := by
  have hw := h.wf
  have : {p : F64 × F64 | (c.get p.1 p.2).isSome} =
      ((c.entries.map (fun e => (F64.ofBits e.1.1, F64.ofBits e.1.2))).toFinset : Set (F64 × F64)) := by
    ext p
    simp only [Set.mem_ofPred_eq, List.coe_toFinset, List.mem_map, Option.isSome_iff_exists]
    constructor
    · rintro ⟨v, hv⟩
      refine ⟨_, (get_iff hw _ _ _).1 hv, ?_⟩
      simp only [keyOf, F64.ofBits_toBits]
    · rintro ⟨e, he, rfl⟩
      refine ⟨e.2, (get_iff hw _ _ _).2 ?_⟩
      rw [keyOf_ofBits]; exact he
  rw [this, Set.ncard_coe_finset, List.toFinset_card_of_nodup, List.length_map]
  · rfl
  · rw [show (fun e : Key × V => (F64.ofBits e.1.1, F64.ofBits e.1.2)) = (fun k : Key => (F64.ofBits k.1, F64.ofBits k.2)) ∘ Prod.fst from rfl,
      ← List.map_map]
    refine List.Nodup.map ?_ hw
    intro a b hab
    have h1 := congrArg (fun p : F64 × F64 => keyOf p.1 p.2) hab
    simpa only [keyOf_ofBits] using h1

/-- C55: a call adds exactly one entry when the pair was absent and the function returned, otherwise none. -/
theorem cache_call_len (f : F64 → F64 → M V) (c : Cache V) (nu x : F64) :
    (c.get nu x = none → (∃ v, f nu x = .ok v) → (Cache.call f c nu x).2.len = c.len + 1) ∧
    (c.get nu x ≠ none ∨ (∃ e, f nu x = .error e) → (Cache.call f c nu x).2.len = c.len) := by
  constructor
  · rintro h ⟨v, hv⟩
    rw [call_miss_ok h hv]; rfl
  · intro h
    cases hg : c.get nu x with
    | some v => rw [call_hit hg]
    | none =>
      rcases h with h | ⟨e, he⟩
      · exact absurd hg h
      · rw [call_miss_err hg he]

/-- C55: `is_empty()` iff `len() = 0`; `contains` iff `get` finds something; `clear` removes everything; `reserve` and
`shrink_to_fit` change nothing that can be observed. -/
theorem cache_observers (c : Cache V) (nu x : F64) (n : Nat) :
    (c.isEmpty = true ↔ c.len = 0) ∧ (c.contains nu x = true ↔ (c.get nu x).isSome) ∧
    (c.clear.get nu x = none ∧ c.clear.len = 0) ∧
    ((c.reserve n).get nu x = c.get nu x ∧ (c.reserve n).len = c.len) ∧
    (c.shrinkToFit.get nu x = c.get nu x ∧ c.shrinkToFit.len = c.len) ∧
    ((Cache.withCapacity n : Cache V).get nu x = none ∧ (Cache.new : Cache V).get nu x = none) := by
  refine ⟨?_, ?_, ⟨rfl, rfl⟩, ⟨rfl, rfl⟩, ⟨rfl, rfl⟩, ⟨rfl, rfl⟩⟩
  · unfold isEmpty len; rw [List.isEmpty_iff_length_eq_zero]
  · unfold contains; rw [any_iff, ← Option.ne_none_iff_isSome]
    unfold get
    rw [Ne, lookup_none, not_not]

/-! ## C56 retain -/

/-- one visit of `retain`: arguments, value, and the predicate's answer (`none`: it panicked) -/
abbrev Visit (V : Type) := (F64 × F64) × V × Option Bool

/-- a predicate that also keeps a log of its calls; Rust closures can do this, so it is an observation available to users -/
def logged {σ : Type} (p : σ → F64 × F64 → V → Option Bool × σ) :
    σ × List (Visit V) → F64 × F64 → V → Option Bool × (σ × List (Visit V)) :=
  fun s a v => ((p s.1 a v).1, ((p s.1 a v).2, s.2 ++ [(a, v, (p s.1 a v).1)]))

/-- arguments and value of an entry -/
def decode (e : Key × V) : (F64 × F64) × V := ((F64.ofBits e.1.1, F64.ofBits e.1.2), e.2)

theorem decode_inj {a b : Key × V} (h : decode a = decode b) : a = b := by
  obtain ⟨ka, va⟩ := a
  obtain ⟨kb, vb⟩ := b
  simp only [decode, Prod.mk.injEq] at h
  have : ka = kb := by rw [← keyOf_ofBits ka, ← keyOf_ofBits kb, h.1.1, h.1.2]
  rw [this, h.2]

theorem retainGo_logged {σ : Type} (p : σ → F64 × F64 → V → Option Bool × σ) (l : List (Key × V)) (hl : l.Nodup) (s : σ) (L0 : List (Visit V)) :
    ∃ L1, (retainGo (logged p) (s, L0) l).2.1.2 = L0 ++ L1 ∧
      (L1.map fun v => (v.1, v.2.1)).Sublist (l.map decode) ∧
      (∀ e, e ∈ (retainGo (logged p) (s, L0) l).2.2 ↔ e ∈ l ∧ ((decode e).1, (decode e).2, some false) ∉ L1) ∧
      ((retainGo (logged p) (s, L0) l).1 = .ok () →
        L1.map (fun v => (v.1, v.2.1)) = l.map decode ∧ ∀ v ∈ L1, v.2.2 ≠ none) := by
  induction l generalizing s L0 with
  | nil => exact ⟨[], by simp [retainGo], by simp, by simp [retainGo], by simp⟩
  | cons e es ih =>
    rw [List.nodup_cons] at hl
    cases hb : (p s (F64.ofBits e.1.1, F64.ofBits e.1.2) e.2).1 with
    | none =>
      have hr : retainGo (logged p) (s, L0) (e :: es) = (.error .panic,
          ((p s (F64.ofBits e.1.1, F64.ofBits e.1.2) e.2).2, L0 ++ [((decode e).1, (decode e).2, none)]), e :: es) := by
        unfold retainGo
        simp only [logged, hb]; rfl
      rw [hr]
      refine ⟨[((decode e).1, (decode e).2, none)], rfl, by simp, ?_, by simp⟩
      intro e'; simp
    | some b =>
      obtain ⟨L1, h1, h2, h3, h4⟩ := ih hl.2 (p s (F64.ofBits e.1.1, F64.ofBits e.1.2) e.2).2
        (L0 ++ [((decode e).1, (decode e).2, some b)])
      have hr : retainGo (logged p) (s, L0) (e :: es) =
          ((retainGo (logged p) ((p s (F64.ofBits e.1.1, F64.ofBits e.1.2) e.2).2, L0 ++ [((decode e).1, (decode e).2, some b)]) es).1,
           (retainGo (logged p) ((p s (F64.ofBits e.1.1, F64.ofBits e.1.2) e.2).2, L0 ++ [((decode e).1, (decode e).2, some b)]) es).2.1,
           if b then e :: (retainGo (logged p) ((p s (F64.ofBits e.1.1, F64.ofBits e.1.2) e.2).2, L0 ++ [((decode e).1, (decode e).2, some b)]) es).2.2
           else (retainGo (logged p) ((p s (F64.ofBits e.1.1, F64.ofBits e.1.2) e.2).2, L0 ++ [((decode e).1, (decode e).2, some b)]) es).2.2) := by
        conv_lhs => unfold retainGo
        simp only [logged, hb]; rfl
      rw [hr]
      have hnot : ((decode e).1, (decode e).2, some false) ∉ L1 := by
        intro hm
        have := h2.subset (List.mem_map_of_mem (f := fun v : Visit V => (v.1, v.2.1)) hm)
        obtain ⟨e', he', hd⟩ := List.mem_map.1 this
        have : e' = e := decode_inj hd
        exact hl.1 (this ▸ he')
      refine ⟨((decode e).1, (decode e).2, some b) :: L1, ?_, ?_, ?_, ?_⟩
      · simp only; rw [h1, List.append_assoc]; rfl
      · rw [List.map_cons, List.map_cons]; exact List.Sublist.cons_cons _ h2
      · intro e'
        simp only
        by_cases hee : e' = e
        · subst hee
          cases b
          · simp only [Bool.false_eq_true, if_false, List.mem_cons, true_or, not_true_eq_false, and_false, iff_false]
            intro hm; exact hl.1 ((h3 e').1 hm).1
          · simp only [if_true, List.mem_cons, true_or, true_and, Prod.mk.injEq, Option.some.injEq, Bool.false_eq_true, and_false, false_or]
            simp [hnot]
        · have hd : ((decode e').1, (decode e').2, some false) ≠ ((decode e).1, (decode e).2, some b) := by
            intro h
            simp only [Prod.mk.injEq] at h
            exact hee (decode_inj (Prod.ext_iff.2 ⟨h.1, h.2.1⟩))
          have hmem : e' ∈ (if b then e :: (retainGo (logged p) ((p s (F64.ofBits e.1.1, F64.ofBits e.1.2) e.2).2, L0 ++ [((decode e).1, (decode e).2, some b)]) es).2.2
             else (retainGo (logged p) ((p s (F64.ofBits e.1.1, F64.ofBits e.1.2) e.2).2, L0 ++ [((decode e).1, (decode e).2, some b)]) es).2.2)
             ↔ e' ∈ (retainGo (logged p) ((p s (F64.ofBits e.1.1, F64.ofBits e.1.2) e.2).2, L0 ++ [((decode e).1, (decode e).2, some b)]) es).2.2 := by
            cases b <;> simp [hee]
          rw [hmem, h3 e']
          simp only [List.mem_cons, not_or]
          simp [hee, hd]
      · intro hok
        obtain ⟨h5, h6⟩ := h4 hok
        refine ⟨by rw [List.map_cons, List.map_cons, h5], ?_⟩
        intro v hv
        rcases List.mem_cons.1 hv with rfl | hv
        · simp
        · exact h6 v hv

/-- C56: `retain(f)`, for any (stateful, possibly panicking) predicate and any visiting order.  No entry is visited twice, every
visit is to an entry of the cache with its own arguments and value; if the predicate never panics, every entry is visited.  An entry
disappears exactly when it was visited and the predicate answered `false`; the others keep their value. -/
theorem cache_retain {f : F64 → F64 → M V} {c : Cache V} (h : Reachable f c) {σ : Type}
    (order : List (Key × V) → List (Key × V)) (ho : ∀ l, (order l).Perm l)
    (p : σ → F64 × F64 → V → Option Bool × σ) (s : σ)
    (outcome : M Unit) (s' : σ) (log : List (Visit V)) (c' : Cache V)
    (hrun : Cache.retain order (logged p) (s, []) c = (outcome, (s', log), c')) :
    (log.map fun v => v.1).Nodup ∧
    (∀ a v ans, (a, v, ans) ∈ log → c.get a.1 a.2 = some v) ∧
    (∀ a v, c'.get a.1 a.2 = some v ↔ c.get a.1 a.2 = some v ∧ (a, v, some false) ∉ log) ∧
    (outcome = .ok () → (∀ a v, c.get a.1 a.2 = some v → (a, v, some true) ∈ log ∨ (a, v, some false) ∈ log)) := by
  have hw := h.wf
  have hwo : ((order c.entries).map Prod.fst).Nodup := ((ho c.entries).map Prod.fst).nodup_iff.2 hw
  have hw' : Wf c' := by
    have := retain_wf ho (logged p) (s, ([] : List (Visit V))) hw
    rw [hrun] at this; exact this
  obtain ⟨L1, h1, h2, h3, h4⟩ := retainGo_logged p (order c.entries) (List.Nodup.of_map _ hwo) s []
  unfold retain at hrun
  simp only [Prod.mk.injEq] at hrun
  obtain ⟨e1, e2, e3⟩ := hrun
  rw [e1] at h4
  rw [e2] at h1
  simp only [List.nil_append] at h1
  subst h1
  have e3' : c'.entries = (retainGo (logged p) (s, ([] : List (Visit V))) (order c.entries)).2.2 := by rw [← e3]
  have hmem : ∀ (a : F64 × F64) (v : V), c.get a.1 a.2 = some v ↔ (keyOf a.1 a.2, v) ∈ order c.entries := fun a v => by
    rw [get_iff hw, (ho _).mem_iff]
  have hdec : ∀ (a : F64 × F64) (v : V), decode (keyOf a.1 a.2, v) = (a, v) := fun a v => by
    simp only [decode, keyOf, F64.ofBits_toBits]
  have hsub : ∀ a v, (a, v) ∈ (order c.entries).map decode ↔ c.get a.1 a.2 = some v := fun a v => by
    rw [hmem, List.mem_map]
    constructor
    · rintro ⟨e, he, hd⟩
      have : e = (keyOf a.1 a.2, v) := decode_inj (by rw [hd, hdec])
      exact this ▸ he
    · intro he; exact ⟨_, he, hdec a v⟩
  refine ⟨?_, ?_, ?_, ?_⟩
  · have hn : ((order c.entries).map (fun e => (decode e).1)).Nodup := by
      rw [show (fun e : Key × V => (decode e).1) = (fun k : Key => (F64.ofBits k.1, F64.ofBits k.2)) ∘ Prod.fst from rfl, ← List.map_map]
      refine List.Nodup.map ?_ hwo
      intro a b hab
      have h1 := congrArg (fun p : F64 × F64 => keyOf p.1 p.2) hab
      simpa only [keyOf_ofBits] using h1
    have := (h2.map Prod.fst)
    rw [List.map_map, List.map_map] at this
    exact hn.sublist this
  · intro a v ans hm
    have := h2.subset (List.mem_map_of_mem (f := fun v : Visit V => (v.1, v.2.1)) hm)
    exact (hsub a v).1 this
  · intro a v
    rw [get_iff hw', e3', h3, hdec, hmem]
  · intro hok a v hg
    obtain ⟨h5, h6⟩ := h4 hok
    have hm : (a, v) ∈ log.map (fun v : Visit V => (v.1, v.2.1)) := by rw [h5]; exact (hsub a v).2 hg
    obtain ⟨⟨a', v', ans⟩, hl, he⟩ := List.mem_map.1 hm
    simp only [Prod.mk.injEq] at he
    obtain ⟨rfl, rfl⟩ := he
    have := h6 _ hl
    cases ans with
    | none => exact absurd rfl this
    | some b => cases b; exact Or.inr hl; exact Or.inl hl

/-- C56 for a pure predicate: exactly the selected entries remain, unchanged, whatever the visiting order. -/
theorem cache_retain_pure {f : F64 → F64 → M V} {c : Cache V} (h : Reachable f c)
    (order : List (Key × V) → List (Key × V)) (ho : ∀ l, (order l).Perm l) (p : F64 → F64 → V → Bool) (nu x : F64) :
    (Cache.retain order (fun (s : Unit) a v => (some (p a.1 a.2 v), s)) () c).1 = .ok () ∧
    (Cache.retain order (fun (s : Unit) a v => (some (p a.1 a.2 v), s)) () c).2.2.get nu x =
      (c.get nu x).filter (fun v => p nu x v) := by
  have key : ∀ l : List (Key × V), retainGo (fun (s : Unit) (a : F64 × F64) v => (some (p a.1 a.2 v), s)) () l =
      (.ok (), (), l.filter fun e => p (F64.ofBits e.1.1) (F64.ofBits e.1.2) e.2) := by
    intro l
    induction l with
    | nil => rfl
    | cons e es ih =>
      unfold retainGo
      simp only [ih, List.filter_cons]
  have hw' := retain_wf ho (fun (s : Unit) (a : F64 × F64) v => (some (p a.1 a.2 v), s)) () h.wf
  refine ⟨by unfold retain; simp only [key], ?_⟩
  apply Option.ext
  intro v
  rw [get_iff hw']
  unfold retain
  simp only [key, List.mem_filter]
  rw [(ho _).mem_iff, ← get_iff h.wf]
  simp only [keyOf, F64.ofBits_toBits]
  cases hg : c.get nu x with
  | none => simp
  | some w =>
    simp only [Option.some.injEq, Option.filter_some]
    constructor
    · rintro ⟨rfl, hp⟩; simp [hp]
    · intro hh; split at hh
      · simp only [Option.some.injEq] at hh; subst hh; exact ⟨rfl, by assumption⟩
      · simp at hh

/-! ## C57 panics leave the cache unchanged -/

/-- C57: if a cached call panics, every observation of the cache is as before, and the uncached function panics too. -/
theorem cache_panic_unchanged {f : F64 → F64 → M V} {c : Cache V} (h : Reachable f c) (nu x : F64)
    (hp : Panics (Cache.call f c nu x).1) :
    Panics (f nu x) ∧ c.get nu x = none ∧
    (∀ nu' x', (Cache.call f c nu x).2.get nu' x' = c.get nu' x' ∧ (Cache.call f c nu x).2.contains nu' x' = c.contains nu' x') ∧
    (Cache.call f c nu x).2.len = c.len := by
  have hf : f nu x = .error .panic := by rw [← cache_transparent h]; exact hp
  have hg : c.get nu x = none := by
    cases hg : c.get nu x with
    | none => rfl
    | some v => rw [cache_holds_true_values h nu x v hg] at hf; cases hf
  rw [call_miss_err hg hf]
  exact ⟨hf, hg, fun _ _ => ⟨rfl, rfl⟩, rfl⟩

/-- a function that panics on negative `x` meets the hypotheses -/
example : Panics (Cache.call (fun nu x => if x.lt 0.0 then .error .panic else .ok nu) (Cache.new) 1.0 (-2.0)).1 := by
  unfold Panics; decide +kernel

/-! ## C65 equality -/

/-- C65: `a == b` on two caches holds exactly when both hold the same argument bits and the stored values compare equal
(`veq` is `==` on tuples of `f64`, under which NaN differs from itself). -/
theorem cache_eq {f g : F64 → F64 → M V} {c d : Cache V} (hc : Reachable f c) (hd : Reachable g d) (veq : V → V → Bool) :
    c.beq veq d = true ↔ ∀ nu x, (c.get nu x = none ∧ d.get nu x = none) ∨
      ∃ v w, c.get nu x = some v ∧ d.get nu x = some w ∧ veq v w = true := by
  have hwc := hc.wf
  have hwd := hd.wf
  unfold beq
  rw [Bool.and_eq_true, decide_eq_true_iff, List.all_eq_true]
  constructor
  · rintro ⟨hlen, hall⟩ nu x
    have hsub : ∀ k ∈ c.entries.map Prod.fst, k ∈ d.entries.map Prod.fst := by
      intro k hk
      obtain ⟨e, he, rfl⟩ := List.mem_map.1 hk
      have := hall e he
      by_contra hn
      rw [(lookup_none _).2 hn] at this
      cases this
    have hsub' : ∀ k ∈ d.entries.map Prod.fst, k ∈ c.entries.map Prod.fst := by
      have h1 : (c.entries.map Prod.fst).Subperm (d.entries.map Prod.fst) := List.Nodup.subperm hwc hsub
      have h2 := h1.perm_of_length_le (by rw [List.length_map, List.length_map]; exact le_of_eq hlen.symm)
      exact fun k hk => h2.mem_iff.2 hk
    cases hg : c.get nu x with
    | none =>
      left
      refine ⟨rfl, ?_⟩
      exact (lookup_none _).2 fun hk => (lookup_none _).1 hg (hsub' _ hk)
    | some v =>
      right
      have := hall _ ((get_iff hwc nu x v).1 hg)
      simp only at this
      cases hl : d.lookupKey (keyOf nu x) with
      | none => rw [hl] at this; cases this
      | some w => rw [hl] at this; exact ⟨v, w, rfl, hl, this⟩
  · intro hall
    have key : ∀ k, (k ∈ c.entries.map Prod.fst ↔ k ∈ d.entries.map Prod.fst) := by
      intro k
      have := hall (F64.ofBits k.1) (F64.ofBits k.2)
      unfold get at this
      rw [keyOf_ofBits] at this
      rcases this with ⟨h1, h2⟩ | ⟨v, w, h1, h2, _⟩
      · rw [lookup_none] at h1 h2; simp only [h1, h2]
      · have h1' : ¬ (k ∉ c.entries.map Prod.fst) := fun h => by rw [← lookup_none, h1] at h; cases h
        have h2' : ¬ (k ∉ d.entries.map Prod.fst) := fun h => by rw [← lookup_none, h2] at h; cases h
        simp only [not_not] at h1' h2'
        simp only [h1', h2']
    constructor
    · have := ((List.perm_ext_iff_of_nodup hwc hwd).2 key).length_eq
      rwa [List.length_map, List.length_map] at this
    · intro e he
      have h1 : c.lookupKey e.1 = some e.2 := (lookup_iff hwc _ _).2 he
      have := hall (F64.ofBits e.1.1) (F64.ofBits e.1.2)
      unfold get at this
      rw [keyOf_ofBits] at this
      rcases this with ⟨h2, _⟩ | ⟨v, w, h2, h3, h4⟩
      · rw [h1] at h2; cases h2
      · rw [h1] at h2
        cases h2
        rw [h3]; exact h4

end Cache

/-! ## the four cache types -/

variable [Libm F64]

/-- C52 for the four cache types of the crate -/
theorem caches_transparent (nu x : F64) :
    (∀ c, Cache.Reachable besseljy c → (cachedBesselJY c nu x).1 = besseljy nu x) ∧
    (∀ c, Cache.Reachable besselik c → (cachedBesselIK c nu x).1 = besselik nu x) ∧
    (∀ c, Cache.Reachable JnuYnu c → (cachedJnuYnu c nu x).1 = JnuYnu nu x) ∧
    (∀ c, Cache.Reachable InuKnu c → (cachedInuKnu c nu x).1 = InuKnu nu x) :=
  ⟨fun _ h => Cache.cache_transparent h nu x, fun _ h => Cache.cache_transparent h nu x,
   fun _ h => Cache.cache_transparent h nu x, fun _ h => Cache.cache_transparent h nu x⟩

/-- C53 for the four cache types of the crate -/
theorem caches_hold_true_values (nu x : F64) :
    (∀ c, Cache.Reachable besseljy c → ∀ v, c.get nu x = some v → besseljy nu x = .ok v) ∧
    (∀ c, Cache.Reachable besselik c → ∀ v, c.get nu x = some v → besselik nu x = .ok v) ∧
    (∀ c, Cache.Reachable JnuYnu c → ∀ v, c.get nu x = some v → JnuYnu nu x = .ok v) ∧
    (∀ c, Cache.Reachable InuKnu c → ∀ v, c.get nu x = some v → InuKnu nu x = .ok v) :=
  ⟨fun _ h v => Cache.cache_holds_true_values h nu x v, fun _ h v => Cache.cache_holds_true_values h nu x v,
   fun _ h v => Cache.cache_holds_true_values h nu x v, fun _ h v => Cache.cache_holds_true_values h nu x v⟩

end Verif
