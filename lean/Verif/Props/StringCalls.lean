import Verif.Lemmas.StringCalls
import Verif.Props.StringCode

/-
C67: exactly what a `FrozenMap` of strings hashes.
-/

set_option autoImplicit false

namespace FC
variable {σ V : Type}

/-- Building a `FrozenMap<String, V>` and performing any history, with any `BuildHasher`. The hasher
is used to try parts of the keys in a fixed order until one tells them apart, then twice per key, and
after that at most once per lookup, on just the bytes the kind of map goes by. -/
theorem C67_string_map [Target] (env : Env) (h : HasherCode σ) (payload : List (Bytes × V))
    (hlen : ∀ e ∈ payload, e.1.length < usz / 2) (ops : List (MapOp V Bytes)) :
    Logs (UMap.stringSession env h.logged payload ops) (StringCalls (payload.map (·.1)) ops) := by
  unfold UMap.stringSession
  refine (UMap.stringFacade_logs env h (fun e he => by have := hlen e he; omega)).bind
    (fun m ev hm => ?_)
  obtain ⟨hk, choice, p1, p2, h1, h2, h3, rfl⟩ := hm
  refine (UMap.run_hashes ops (m := m.2) (rep := m.1) ?_).bind (fun r ev hr => .pure ?_)
  · cases hm2 : m.2 with
    | scanning es => rw [hm2] at hk; exact hk
    | hashed T => rw [hm2] at hk; exact hk
  · exact ⟨m.1, choice, p1, p2, ev, h1, h2, h3, hr, by simp⟩

/-- How much is hashed before the first lookup: at most `32 * lo + 2` uses of the hasher per key, where
`lo` is the length of the shortest key, and all but two of them on at most 16 bytes. -/
theorem C67_building_is_linear (keys : List Bytes) (rep : StringRep)
    (choice pass₁ pass₂ : List HashCall) (hc : Chooses keys rep choice)
    (h1 : rep.callsFor keys pass₁) (h2 : rep.callsFor keys pass₂) (k : Bytes) (hk : k ∈ keys) :
    (choice ++ pass₁ ++ pass₂).length ≤ (32 * k.length + 2) * keys.length ∧
    ∀ e ∈ choice, e.use = .trial ∧ e.bytes.length ≤ 16 := by
  have hp1 := (StringRep.callsFor_length h1).1
  have hp2 := (StringRep.callsFor_length h2).1
  have key : ∀ lo hi o, (∀ k ∈ keys, lo ≤ k.length ∧ k.length ≤ hi) →
      Searches (keys.length / 20) keys (searchOrder lo hi) o choice →
      (choice ++ pass₁ ++ pass₂).length ≤ (32 * k.length + 2) * keys.length ∧
      ∀ e ∈ choice, e.use = .trial ∧ e.bytes.length ≤ 16 := by
    intro lo hi o hb hs
    have hlo := (hb k hk).1
    refine ⟨?_, fun e he => ?_⟩
    · have : choice.length ≤ 32 * k.length * keys.length :=
        le_trans hs.bound.1 (Nat.mul_le_mul_right _
          (le_trans (searchOrder_length lo hi) (Nat.mul_le_mul_left _ hlo)))
      rw [Nat.add_mul, List.length_append, List.length_append]
      omega
    · obtain ⟨h3, p, hp, k', _, h4⟩ := hs.bound.2 e he
      exact ⟨h3, by rw [h4]; exact Place.of_length hp k'⟩
  have hnil : choice = [] → (choice ++ pass₁ ++ pass₂).length ≤ (32 * k.length + 2) * keys.length ∧
      ∀ e ∈ choice, e.use = .trial ∧ e.bytes.length ≤ 16 := by
    rintro rfl
    refine ⟨?_, by simp⟩
    rw [Nat.add_mul, List.nil_append, List.length_append]
    omega
  cases hc with
  | few h => exact hnil rfl
  | lengths h _ => exact hnil rfl
  | part lo hi p ev _ _ hb _ _ hs _ _ => exact key lo hi _ hb hs
  | whole lo hi o ev _ _ hb _ _ hs _ => exact key lo hi _ hb hs

/-- How much a lookup hashes: at most one use of the hasher; if the map goes by a part of the string,
at most 16 bytes, however long the string is. -/
theorem C67_lookup_hashes_once (keys : List Bytes) (rep : StringRep) (choice : List HashCall)
    (hc : Chooses keys rep choice) (q : Bytes) (ev : List HashCall) (h : rep.callsFor [q] ev) :
    ev.length ≤ 1 ∧ ∀ e ∈ ev, (e.use = .whole ∧ e.bytes = q ∧ rep = .common) ∨
      (e.use = .part ∧ e.bytes.length ≤ 16 ∧ e.bytes <:+: q) := by
  have hl := StringRep.callsFor_length h
  refine ⟨hl.1, fun e he => ?_⟩
  obtain ⟨s, hs, c, hc'⟩ := hl.2 e he
  obtain rfl : s = q := by simpa using hs
  have hsub : ∀ i l : Nat, l ≤ 16 → e ∈ StringRep.calls (.left i (i + l)) s c →
      e.use = .part ∧ e.bytes.length ≤ 16 ∧ e.bytes <:+: s := by
    intro i l hl he
    unfold StringRep.calls at he
    simp only at he
    split at he
    · simp only [List.mem_singleton] at he
      subst he
      refine ⟨rfl, by simp only [List.length_take]; omega, ?_⟩
      exact (List.take_prefix _ _).isInfix.trans (List.drop_suffix _ _).isInfix
    · cases he
  cases hc with
  | few => cases hc'
  | lengths => cases hc'
  | part lo hi p ev _ _ hb _ _ hs _ _ =>
    exact Or.inr (hsub _ _ (mem_searchOrder (hs.mem rfl)).2.1 hc')
  | whole lo hi o ev _ _ hb _ _ hs _ =>
    simp only [StringRep.calls, List.mem_singleton] at hc'
    subst hc'
    exact Or.inl ⟨rfl, rfl, rfl⟩

/-- The log is only watched: without it, the same is seen, and panics are the same. -/
theorem C67_log_changes_nothing [Target] (env : Env) (h : HasherCode σ) (payload : List (Bytes × V))
    (ops : List (MapOp V Bytes)) (s : σ) (log : List HashCall) :
    (UMap.stringSession env h.logged payload ops (s, log)).map (fun r => (r.1, r.2.1))
      = UMap.stringSession env h payload ops s :=
  ((UMap.stringFacade_forgets env h payload).bind (fun m =>
    (UMap.run_forgets (StringRep.code_forgets env.oc h m.1) ops m.2).bind (fun _ => .pure))) s log

/-! ### Non-vacuity -/

/-- Six keys of three bytes with an honest hasher. The first bytes are rejected at the second key, the
second bytes at the third, the last ones at the second, and the first pairs of bytes are accepted.
After two passes over the keys, the lookups hash two bytes each, and that of a short string none. -/
example : UMap.stringSession checkedEnv (HasherCode.det demoHasher (fun s => [.writeStr s])).logged
      sameLenKeys [.get [1, 2, 9], .get [1], .len, .getManyMut [([1, 1, 9], 7), ([3, 3, 9], 8)]]
      ((), [])
    = .ok ([.value (some 20), .value none, .number 6, .many (some [10, 50])], (),
        [⟨.trial, [1], 249⟩, ⟨.trial, [1], 249⟩,
          ⟨.trial, [1], 249⟩, ⟨.trial, [2], 250⟩, ⟨.trial, [1], 249⟩,
          ⟨.trial, [9], 257⟩, ⟨.trial, [9], 257⟩,
          ⟨.trial, [1, 1], 8681⟩, ⟨.trial, [1, 2], 8682⟩, ⟨.trial, [2, 1], 8712⟩,
          ⟨.trial, [2, 2], 8713⟩, ⟨.trial, [3, 3], 8745⟩, ⟨.trial, [3, 4], 8746⟩,
          ⟨.part, [1, 1], 6759⟩, ⟨.part, [1, 2], 6760⟩, ⟨.part, [2, 1], 6790⟩,
          ⟨.part, [2, 2], 6791⟩, ⟨.part, [3, 3], 6823⟩, ⟨.part, [3, 4], 6824⟩,
          ⟨.part, [1, 1], 6759⟩, ⟨.part, [1, 2], 6760⟩, ⟨.part, [2, 1], 6790⟩,
          ⟨.part, [2, 2], 6791⟩, ⟨.part, [3, 3], 6823⟩, ⟨.part, [3, 4], 6824⟩,
          ⟨.part, [1, 2], 6760⟩, ⟨.part, [1, 1], 6759⟩, ⟨.part, [3, 3], 6823⟩]) := by
  decide +kernel

/-- A choice that meets the hypotheses of the bounds. -/
example : ∃ choice, Chooses (sameLenKeys.map (·.1)) (.left 0 1) choice ∧ choice ≠ [] := by
  have hb : ∀ k ∈ sameLenKeys.map (·.1), 3 ≤ k.length ∧ k.length ≤ 3 := by decide
  refine ⟨_, .part 3 3 ⟨0, 1, false⟩ _ (by decide) ?_ hb (by decide) (by decide)
    (.found _ _ _ (.accept [1, 2, 3, 4, 5, 6] rfl (by decide))) rfl (by decide), by decide⟩
  unfold LengthsSpread
  rw [← analyzeLengths_iff]
  decide +kernel

theorem sameLenKeys_chosen : ∃ choice, Chooses (sameLenKeys.map (·.1)) (.left 0 1) choice := by
  have hb : ∀ k ∈ sameLenKeys.map (·.1), 3 ≤ k.length ∧ k.length ≤ 3 := by decide
  refine ⟨_, .part 3 3 ⟨0, 1, false⟩ _ (by decide) ?_ hb (by decide) (by decide)
    (.found _ _ _ (.accept [1, 2, 3, 4, 5, 6] rfl (by decide))) rfl (by decide)⟩
  unfold LengthsSpread
  rw [← analyzeLengths_iff]
  decide +kernel

example := C67_string_map (σ := Unit) checkedEnv (HasherCode.det demoHasher (fun s => [.writeStr s])) sameLenKeys (by decide +kernel)
  [.get [1, 2, 9], .get [1], .len, .getManyMut [([1, 1, 9], 7), ([3, 3, 9], 8)]]

example (pass₁ pass₂ : List HashCall)
    (h1 : StringRep.callsFor (.left 0 1) (sameLenKeys.map (·.1)) pass₁)
    (h2 : StringRep.callsFor (.left 0 1) (sameLenKeys.map (·.1)) pass₂) :=
  C67_building_is_linear (sameLenKeys.map (·.1)) (.left 0 1) _ pass₁ pass₂ sameLenKeys_chosen.choose_spec h1 h2
    [1, 1, 9] (by decide)

example := C67_lookup_hashes_once (sameLenKeys.map (·.1)) (.left 0 1) _ sameLenKeys_chosen.choose_spec [1, 2, 9]
  [⟨.part, [1], 250⟩] ⟨[250], rfl, rfl⟩

end FC
