import Verif.Spec.Len
import Verif.Lemmas.Len
import Verif.Props.History
import Verif.Props.MapEq
import Verif.Props.Sets
import Verif.Props.SpecializedMaps

/-
C62: length maps and sets over every type with a built-in length.
-/

set_option autoImplicit false

namespace FC

/-- Every such type keeps `Eq`'s contract, equal values have equal lengths, and `is_empty` says
whether the length is zero. -/
theorem C62_equal_values_equal_lengths (T : LenType) (h : BuiltinLen T) :
    LawfulEq T.eq ∧ (∀ a b, T.eq a b = true → T.len a = T.len b) ∧
      ∀ v, T.isEmpty v = true ↔ T.len v = 0 := by
  have main : LawfulEq T.eq ∧ ∀ a b, T.eq a b = true → T.len a = T.len b := by
    induction h with
    | byteString =>
      refine ⟨lawfulEq_decide (α := List UInt8), fun a b h => ?_⟩
      simp only [FC.byteString, decide_eq_true_eq] at h
      rw [h]
    | cStr =>
      refine ⟨⟨by simp [cStr], by simp only [cStr, decide_eq_true_eq]; intro a b h; exact h.symm,
        by simp only [cStr, decide_eq_true_eq]; intro a b c h h'; exact h.trans h'⟩, fun a b h => ?_⟩
      simp only [cStr, decide_eq_true_eq] at h ⊢
      rw [h]
    | cString =>
      refine ⟨⟨by simp [cString],
        by simp only [cString, decide_eq_true_eq]; intro a b h; exact h.symm,
        by simp only [cString, decide_eq_true_eq]; intro a b c h h'; exact h.trans h'⟩,
        fun a b h => ?_⟩
      simp only [cString, decide_eq_true_eq, CBytes.bytes] at h ⊢
      rw [h]
    | sequence heq => exact ⟨seqEq_lawful heq, fun a b h => seqEq_length h⟩
    | hashSet heq =>
      refine ⟨lawful_of_iff (fun a b => hashSet_eq_iff heq a.2 b.2), fun a b h => ?_⟩
      simp only [FC.hashSet, Bool.and_eq_true, decide_eq_true_eq] at h
      exact h.1
    | bTreeSet heq =>
      have h := seqEq_lawful heq
      exact ⟨⟨fun a => h.refl a.1, fun a b => h.symm a.1 b.1, fun a b c => h.trans a.1 b.1 c.1⟩,
        fun a b h => seqEq_length h⟩
    | hashMap heq hveq =>
      refine ⟨⟨fun a => ?_, fun a b h => ?_, fun a b c h h' => ?_⟩, fun a b h => ?_⟩
      · exact (hashMap_eq_iff heq a.2 a.2).2 (fun k => SameAnswer.refl hveq.refl _)
      · exact (hashMap_eq_iff heq b.2 a.2).2 (fun k => ((hashMap_eq_iff heq a.2 b.2).1 h k).symm hveq.symm)
      · exact (hashMap_eq_iff heq a.2 c.2).2 (fun k => ((hashMap_eq_iff heq a.2 b.2).1 h k).trans hveq.trans
          ((hashMap_eq_iff heq b.2 c.2).1 h' k))
      · simp only [FC.hashMap, Bool.and_eq_true, decide_eq_true_eq] at h
        exact h.1
    | bTreeMap heq hveq =>
      have h := seqEq_lawful (lawful_pair heq hveq)
      exact ⟨⟨fun a => h.refl a.1, fun a b => h.symm a.1 b.1, fun a b c => h.trans a.1 b.1 c.1⟩,
        fun a b h => seqEq_length h⟩
    | pointer _ ih =>
      exact ⟨⟨fun a => ih.1.refl _, fun a b => ih.1.symm _ _, fun a b c => ih.1.trans _ _ _⟩,
        fun a b h => ih.2 _ _ h⟩
  exact ⟨main.1, main.2, fun v => by simp [LenType.isEmpty]⟩

example := C62_equal_values_equal_lengths _ (.pointer (.hashSet (T := Nat) lawfulEq_decide))

/-- A C string's length leaves out the zero it ends with. -/
theorem C62_c_string_length (c : CBytes) :
    ∃ text : Bytes, c.stored = text ++ [0] ∧ (0 : UInt8) ∉ text ∧
      cStr.len c = text.length ∧ cString.len c = text.length := by
  obtain ⟨stored, text, h, h0⟩ := c
  subst h
  exact ⟨text, rfl, h0, by simp [cStr, CBytes.bytes], by simp [cString, CBytes.bytes]⟩

/-- Borrowing changes neither length nor equality. -/
theorem C62_borrowed (K Q : LenType) (f : K.Val → Q.Val) (h : Borrows K Q f) :
    (∀ k, Q.len (f k) = K.len k) ∧ ∀ a b, Q.eq (f a) (f b) = K.eq a b := by
  cases h with
  | self => exact ⟨fun _ => rfl, fun _ _ => rfl⟩
  | cString =>
    refine ⟨fun _ => rfl, fun a b => ?_⟩
    obtain ⟨x, sa, hx, _⟩ := a
    obtain ⟨y, sb, hy, _⟩ := b
    subst hx hy
    simp [cStr, cString, CBytes.bytes]
  | pointer => exact ⟨fun _ => rfl, fun _ _ => rfl⟩

example := C62_borrowed _ _ _ (.pointer (T := cString))

/-- A length map with such keys can be built from any payload that fits and, however it is probed, is
a dictionary in every history. -/
theorem C62_length_map [Target] {V : Type} (K Q : LenType) (hQ : BuiltinLen Q) (f : K.Val → Q.Val)
    (hf : Borrows K Q f) (env : Env) (S : IdxTy) (cap : Nat) (hS : S.capacity = some cap)
    (payload : List (K.Val × V)) (hcap : payload.length ≤ cap) (hd : DistinctKeys K.eq payload) :
    ∃ m, LengthMap.fromVec env S K.len payload = .ok m ∧
      Refines (lengthApi f Q.eq Q.len) Q.eq f m payload := by
  obtain ⟨h1, h2, _⟩ := C62_equal_values_equal_lengths Q hQ
  obtain ⟨h3, h4⟩ := C62_borrowed K Q f hf
  have hlen : ∀ k q, Q.eq q (f k) = true → Q.len q = K.len k := fun k q h => by rw [h2 _ _ h, h3]
  obtain ⟨m, hm, _⟩ :=
    (C17_length_map_partial env S cap hS f Q.eq K.len Q.len h1.refl hlen payload).1 hcap
  refine ⟨m, hm, C49_length_map env S f Q.eq h1 K.len Q.len hlen payload ?_ m hm
    (by have := (IdxTy.capacity_some hS).2.2; omega)⟩
  unfold DistinctProbes
  simpa only [h4] using hd

/-- Likewise for a length set. -/
theorem C62_length_set [Target] (T : LenType) (hT : BuiltinLen T) (env : Env) (S : IdxTy) (cap : Nat)
    (hS : S.capacity = some cap) (payload : List T.Val) (hcap : payload.length ≤ cap)
    (hd : Distinct T.eq payload) :
    ∃ s, LengthSet.fromVec env S T.len payload = .ok s ∧
      Presents T.eq (s.toSetI T.eq T.len) payload := by
  obtain ⟨h1, h2, _⟩ := C62_equal_values_equal_lengths T hT
  exact C47_length_set env S cap hS T.eq h1 T.len h2 payload hcap hd

/-- Two C strings, of lengths two and one. -/
def exCAb : CBytes := ⟨[97, 98, 0], [97, 98], rfl, by decide⟩
def exCC : CBytes := ⟨[99, 0], [99], rfl, by decide⟩

/-- Boxed C strings probed as C strings: the lengths leave out the final zero. -/
example : ∃ m, LengthMap.fromVec checkedEnv IdxTy.u8 (pointer cString).len
      [(⟨exCAb⟩, "x"), (⟨exCC⟩, "y")] = .ok m ∧
    Refines (lengthApi Pointer.target cString.eq cString.len) cString.eq Pointer.target m
      [((⟨exCAb⟩ : Pointer CBytes), "x"), (⟨exCC⟩, "y")] ∧
    cString.len exCAb = 2 :=
  have ⟨m, h1, h2⟩ := C62_length_map (pointer cString) cString .cString Pointer.target .pointer
    checkedEnv IdxTy.u8 255 rfl [(⟨exCAb⟩, "x"), (⟨exCC⟩, "y")] (by decide) (by
      simp only [DistinctKeys, List.pairwise_cons]
      decide)
  ⟨m, h1, h2, rfl⟩

/-- Hash sets as elements of a length set: {1, 2}, {3} and {4, 1}. -/
example : ∃ s, LengthSet.fromVec checkedEnv IdxTy.u8 (hashSet Nat (fun a b => decide (a = b))).len
      [⟨[1, 2], by decide⟩, ⟨[3], by decide⟩, ⟨[4, 1], by decide⟩] = .ok s ∧
    Presents (hashSet Nat (fun a b => decide (a = b))).eq
      (s.toSetI (hashSet Nat (fun a b => decide (a = b))).eq
        (hashSet Nat (fun a b => decide (a = b))).len)
      [⟨[1, 2], by decide⟩, ⟨[3], by decide⟩, ⟨[4, 1], by decide⟩] :=
  C62_length_set _ (.hashSet lawfulEq_decide) checkedEnv IdxTy.u8 255 rfl
    [⟨[1, 2], by decide⟩, ⟨[3], by decide⟩, ⟨[4, 1], by decide⟩] (by decide) (by
      simp only [Distinct, List.pairwise_cons]
      decide)

/-- {2, 1} is {1, 2}, and has its length. -/
example : (hashSet Nat (fun a b => decide (a = b))).eq ⟨[1, 2], by decide⟩ ⟨[2, 1], by decide⟩ = true ∧
    (hashSet Nat (fun a b => decide (a = b))).isEmpty ⟨[2, 1], by decide⟩ = false := by decide

/-- Every rule applies to something. -/
example : BuiltinLen (pointer (pointer byteString)) ∧
    BuiltinLen (sequence (List Nat) (fun a b => decide (a = b))) ∧
    BuiltinLen (hashMap Nat Bool (fun a b => decide (a = b)) (fun a b => decide (a = b))) ∧
    Borrows cString cStr id :=
  ⟨.pointer (.pointer .byteString), .sequence lawfulEq_decide,
    .hashMap lawfulEq_decide lawfulEq_decide, .cString⟩

end FC
