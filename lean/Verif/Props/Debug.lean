import Verif.Lemmas.Debug
import Verif.Props.SetIter
import Verif.Lemmas.Reach

/-
C57: `Debug` output.
-/

set_option autoImplicit false

namespace FC
variable {M K V Q T : Type}

theorem printsAsMap {A : MapApi M K V Q} {fk : Fmt K} {fv : Fmt V} {m : M} {es : List (K × V)}
    (h : A.iter m = MapIter.new es) :
    PrintsAsMap A fk fv m (debugMap fk fv (es.map fun x => (x.1, x.2))) := by
  refine ⟨es, fun n => ?_, ?_⟩
  · rw [h]; exact (C13_iter true es n).1
  · have : (es.map fun x : K × V => (x.1, x.2)) = es := List.map_id _
    rw [this]
    exact debugMap_prints fk fv es

/-! ### Maps, in any state -/

theorem C57_scanning_map (P : Probe K Q) (fk : Fmt K) (fv : Fmt V) (m : ScanningMap K V) :
    PrintsAsMap (scanningApi P) fk fv m (m.debug fk fv) := printsAsMap rfl

theorem C57_common_map (P : Probe K Q) (fk : Fmt K) (fv : Fmt V) (m : CommonMap K V) :
    PrintsAsMap (commonApi P) fk fv m (m.debug fk fv) := printsAsMap rfl

theorem C57_integer_map (fk : Fmt Int) (fv : Fmt V) (m : IntegerMap V) :
    PrintsAsMap integerApi fk fv m (m.debug fk fv) := printsAsMap rfl

theorem C57_length_map (borrow : K → Q) (eq : Q → Q → Bool) (lenQ : Q → Nat) (fk : Fmt K)
    (fv : Fmt V) (m : LengthMap K V) :
    PrintsAsMap (lengthApi borrow eq lenQ) fk fv m (m.debug fk fv) := printsAsMap rfl

theorem C57_left_slice_map (fk : Fmt Bytes) (fv : Fmt V) (m : LeftSliceMap V) :
    PrintsAsMap leftApi fk fv m (m.debug fk fv) := printsAsMap rfl

theorem C57_right_slice_map [Target] (oc : Bool) (fk : Fmt Bytes) (fv : Fmt V) (m : RightSliceMap V) :
    PrintsAsMap (rightApi oc) fk fv m (m.debug fk fv) := printsAsMap rfl

theorem C57_range_map [Target] (oc : Bool) (t : IntTy) (fk : Fmt Int) (fv : Fmt V) (m : IntegerRangeMap V) :
    PrintsAsMap (rangeApi oc t) fk fv m (m.debug fk fv) := printsAsMap rfl

/-- Printing integers read back as `K`. -/
theorem debugMap_int {ty : KeyTy K} {f : K → Int} {g : Int → K} (hk : ty.kind = .u32 f g)
    (fk : Fmt K) (fv : Fmt V) (es : List (Int × V)) :
    Prints "{" "}" (entryText fk fv) (ty.ofIntEntries es)
      (debugMap (ty.fmtInt fk) fv (es.map fun x => (x.1, x.2))) := by
  have h := debugMap_prints (ty.fmtInt fk) fv es
  have hm : (es.map fun x : Int × V => (x.1, x.2)) = es := List.map_id _
  have ho : ty.ofIntEntries es = es.map (fun e => (g e.1, e.2)) := by
    unfold KeyTy.ofIntEntries; rw [hk]
  rw [hm, ho, ← Prints.map]
  refine h.congr (fun e _ => ?_)
  unfold entryText KeyTy.fmtInt
  rw [hk]

/-- Printing byte strings read back as `K`. -/
theorem debugMap_bytes {ty : KeyTy K} {f : K → Bytes} {g : Bytes → K} (hk : ty.kind = .string f g)
    (fk : Fmt K) (fv : Fmt V) (es : List (Bytes × V)) :
    Prints "{" "}" (entryText fk fv) (ty.ofBEntries es)
      (debugMap (ty.fmtB fk) fv (es.map fun x => (x.1, x.2))) := by
  have h := debugMap_prints (ty.fmtB fk) fv es
  have hm : (es.map fun x : Bytes × V => (x.1, x.2)) = es := List.map_id _
  have ho : ty.ofBEntries es = es.map (fun e => (g e.1, e.2)) := by
    unfold KeyTy.ofBEntries; rw [hk]
  rw [hm, ho, ← Prints.map]
  refine h.congr (fun e _ => ?_)
  unfold entryText KeyTy.fmtB
  rw [hk]

theorem debugMap_self (fk : Fmt K) (fv : Fmt V) (es : List (K × V)) :
    Prints "{" "}" (entryText fk fv) es (debugMap fk fv (es.map fun x => (x.1, x.2))) := by
  have hm : (es.map fun x : K × V => (x.1, x.2)) = es := List.map_id _
  rw [hm]
  exact debugMap_prints fk fv es

theorem Safe.debug [Target] {ty : KeyTy K} {m : FrozenMap K V} (hm : Safe ty m) (fk : Fmt K) (fv : Fmt V) :
    Prints "{" "}" (entryText fk fv) (m.entries ty) (m.debug ty fk fv) := by
  rcases hm with hg | ⟨r, f, g, rfl, hk, _⟩
  · cases m with
    | scanning m => exact debugMap_self fk fv _
    | commonSmall m => exact debugMap_self fk fv _
    | commonLarge m => exact debugMap_self fk fv _
    | u32Small m => obtain ⟨f, g, hk, _⟩ := hg; exact debugMap_int hk fk fv _
    | u32Large m => obtain ⟨f, g, hk, _⟩ := hg; exact debugMap_int hk fk fv _
    | u32Range m => obtain ⟨f, g, hk, _⟩ := hg; exact debugMap_int hk fk fv _
    | leftSmall m => obtain ⟨f, g, hk, _⟩ := hg; exact debugMap_bytes hk fk fv _
    | leftLarge m => obtain ⟨f, g, hk, _⟩ := hg; exact debugMap_bytes hk fk fv _
    | rightSmall m => exact absurd hg not_false
    | rightLarge m => exact absurd hg not_false
    | lengthSmall m => obtain ⟨f, g, hk, _⟩ := hg; exact debugMap_bytes hk fk fv _
  · exact debugMap_int hk fk fv _

/-- A FrozenMap, after any writes; every key of the payload is printed exactly as often as the
payload has it. -/
theorem C57_frozen_map [Target] (env : Env) (ty : KeyTy K) (hty : LawfulKey ty) (payload : List (K × V))
    (hcap : payload.length < 2 ^ 32) (bh : Hasher) (m : FrozenMap K V)
    (hm : Reachable env ty payload bh m) (fk : Fmt K) (fv : Fmt V) :
    ∃ es : List (K × V), (es.map (·.1)).Perm (payload.map (·.1)) ∧
      (∀ n, (calls MapIter.next n (m.iter ty)).1 = firstCalls es n) ∧
      Prints "{" "}" (entryText fk fv) es (m.debug ty fk fv) :=
  ⟨m.entries ty, hm.keys hty, fun n => (C13_iter true _ n).1, (hm.safe hty hcap).debug fk fv⟩

/-- Decimal texts. -/
def fmtNat : Fmt Nat := fun n => some (toString n)
def fmtU32 : Fmt UInt32 := fun n => some (toString n.toNat)
/-- A type whose `fmt` fails on one value. -/
def fmtPicky : Fmt Nat := fun n => if n = 4 then none else some (toString n)

example : (match FrozenMap.new checkedEnv u32Ty exRange demoHasher with
    | .ok m => m.debug u32Ty fmtU32 fmtNat
    | _ => none) = some "{10: 2, 11: 4, 12: 1, 13: 3, 14: 5}" := by decide +kernel

example : (match FrozenMap.new checkedEnv u32Ty exRange demoHasher with
    | .ok m => m.debug u32Ty fmtU32 fmtPicky
    | _ => some "") = none := by decide +kernel

example : ∃ m, Reachable checkedEnv u32Ty exU32 demoHasher m ∧
    ∃ es : List (UInt32 × Nat), (es.map (·.1)).Perm (exU32.map (·.1)) ∧
      (∀ n, (calls MapIter.next n (m.iter u32Ty)).1 = firstCalls es n) ∧
      Prints "{" "}" (entryText fmtU32 fmtNat) es (m.debug u32Ty fmtU32 fmtNat) := by
  obtain ⟨m, h⟩ := exU32_ok
  exact ⟨m, .new h, C57_frozen_map _ _ u32Ty_lawful _ (by decide) _ m (.new h) _ _⟩

/-- What an iterator gives after `n` calls is the rest of what it gives from the start. -/
theorem calls_rest {σ α : Type} (next : σ → Option α × σ) (it : σ) (es : List α)
    (h : ∀ n, (calls next n it).1 = firstCalls es n) (n k : Nat) :
    (calls next k (calls next n it).2).1 = firstCalls (es.drop n) k := by
  have happ : ∀ (n k : Nat) (s : σ), (calls next (n + k) s).1
      = (calls next n s).1 ++ (calls next k (calls next n s).2).1 := by
    intro n k
    induction n with
    | zero => intro s; simp [calls]
    | succ n ih => intro s; rw [Nat.succ_add]; simp [calls, ih]
  have h1 := happ n k it
  rw [h, h] at h1
  have h2 : firstCalls es (n + k) = firstCalls es n ++ firstCalls (es.drop n) k := by
    unfold firstCalls
    rw [List.range_add, List.map_append, List.map_map]
    congr 1
    apply List.map_congr_left
    intro i _
    simp [List.getElem?_drop]
  rw [h2] at h1
  exact (List.append_cancel_left h1).symm

/-! ### Iterators

Printing an iterator shows what it still has to give; the iterator itself is untouched, because
`fmt` works on a clone, and a clone gives the same items. -/

theorem pairText_eq (fk : Fmt K) (fv : Fmt V) : fmtPair fk fv = pairText fk fv := by
  funext e
  unfold fmtPair pairText
  cases fk e.1 <;> cases fv e.2 <;> rfl

theorem C57_iter (fk : Fmt K) (fv : Fmt V) (es : List (K × V)) (n : Nat) :
    let it := (calls MapIter.next n (MapIter.new es)).2
    Prints "[" "]" (pairText fk fv) (es.drop n) (it.debug fk fv) ∧
    ∀ k, (calls MapIter.next k it.clone).1 = firstCalls (es.drop n) k := by
  have h := C13_iter true es n
  intro it
  constructor
  · have := h.2.2.2.2 (fun b e => Builder.entry b (fmtPair fk fv e)) (Builder.start "[")
    unfold MapIter.debug MapIter.clone
    rw [this, pairText_eq]
    exact prints_foldl _ _ _ _
  · intro k
    exact calls_rest MapIter.next _ es (fun j => (C13_iter true es j).1) n k

theorem C57_keys (fk : Fmt K) (es : List (K × V)) (n : Nat) :
    let it := (calls MapKeys.next n (MapKeys.new es)).2
    Prints "[" "]" fk ((es.map (·.1)).drop n) (it.debug fk) ∧
    ∀ k, (calls MapKeys.next k it.clone).1 = firstCalls ((es.map (·.1)).drop n) k := by
  have h := C13_keys true es n
  intro it
  constructor
  · have := h.2.2.2.2 (fun b e => Builder.entry b (fk e)) (Builder.start "[")
    unfold MapKeys.debug MapKeys.clone MapIter.clone
    rw [this]
    exact prints_foldl _ _ _ _
  · intro k
    exact calls_rest MapKeys.next _ _ (fun j => (C13_keys true es j).1) n k

theorem C57_values (fv : Fmt V) (es : List (K × V)) (n : Nat) :
    let it := (calls MapValues.next n (MapValues.new es)).2
    Prints "[" "]" fv ((es.map (·.2)).drop n) (it.debug fv) ∧
    ∀ k, (calls MapValues.next k it.clone).1 = firstCalls ((es.map (·.2)).drop n) k := by
  have h := C13_values true es n
  intro it
  constructor
  · have := h.2.2.2.2 (fun b e => Builder.entry b (fv e)) (Builder.start "[")
    unfold MapValues.debug MapValues.clone MapIter.clone
    rw [this]
    exact prints_foldl _ _ _ _
  · intro k
    exact calls_rest MapValues.next _ _ (fun j => (C13_values true es j).1) n k

theorem C57_set_iter (ft : Fmt T) (es : List (T × Unit)) (n : Nat) :
    let it := (calls SetIter.next n (SetIter.new es)).2
    Prints "[" "]" ft ((es.map (·.1)).drop n) (it.debug ft) ∧
    ∀ k, (calls SetIter.next k it.clone).1 = firstCalls ((es.map (·.1)).drop n) k := by
  intro it
  constructor
  · have : it.debug ft = debugList ft ((es.map (·.1)).drop n) := by
      unfold SetIter.debug SetIter.clone SetIter.items
      simp only [it, SetIter.calls_eq]
      congr 1
      rw [List.map_drop]
      by_cases hn : n ≤ es.length
      · rw [Nat.min_eq_left hn]
      · rw [List.drop_eq_nil_of_le (by simp; omega), List.drop_eq_nil_of_le (by simp; omega)]
    rw [this]
    exact debugList_prints ft _
  · intro k
    exact calls_rest SetIter.next _ _ (fun j => (C46_iter true es j).1) n k

/-- The consuming iterator prints clones of what is left. -/
theorem C57_set_into_iter (c : T → T) (ft : Fmt T) (es : List (T × Unit)) (n : Nat) :
    let it := (calls SetIntoIter.next n (SetIntoIter.new es)).2
    Prints "[" "]" ft (((es.map (·.1)).drop n).map c) (it.debug c ft) ∧
    ∀ k, (calls SetIntoIter.next k (it.clone c)).1
      = firstCalls (((es.map (·.1)).drop n).map c) k := by
  have hit : ∀ (n : Nat) (es : List (T × Unit)),
      (calls SetIntoIter.next n (SetIntoIter.new es)).2 = ⟨es.drop n⟩ := by
    intro n
    induction n with
    | zero => intro es; rfl
    | succ n ih =>
      intro es
      cases es with
      | nil => have := ih []; rw [List.drop_nil] at this ⊢; exact this
      | cons e es => exact ih es
  intro it
  have h : it = ⟨es.drop n⟩ := hit n es
  constructor
  · rw [h]
    have := debugList_prints ft (((es.map (·.1)).drop n).map c)
    unfold SetIntoIter.debug SetIntoIter.clone
    rw [List.map_map]
    rw [← List.map_drop, List.map_map] at this ⊢
    exact this
  · intro k
    rw [h]
    have := (SetIntoIter.contract ((es.drop n).map fun e => (c e.1, e.2)) k).1
    unfold SetIntoIter.clone
    rw [← List.map_drop, List.map_map]
    rw [List.map_map] at this
    exact this

/-- The set-operation iterators print everything they still yield, if they yield it at all. -/
theorem C57_set_operations (ft : Fmt T) (it : BinIter T) (items : List T) :
    (it.unionAll = .ok items →
      ∃ out, it.unionDebug ft = .ok out ∧ Prints "[" "]" ft items out) ∧
    (it.symDiffAll = .ok items →
      ∃ out, it.symDiffDebug ft = .ok out ∧ Prints "[" "]" ft items out) ∧
    (it.differenceAll = .ok items →
      ∃ out, it.differenceDebug ft = .ok out ∧ Prints "[" "]" ft items out) ∧
    (it.intersectionAll = .ok items →
      ∃ out, it.intersectionDebug ft = .ok out ∧ Prints "[" "]" ft items out) := by
  refine ⟨fun h => ?_, fun h => ?_, fun h => ?_, fun h => ?_⟩ <;>
    refine ⟨debugList ft items, ?_, debugList_prints ft items⟩
  · show it.unionAll.map _ = _; rw [h]; rfl
  · show it.symDiffAll.map _ = _; rw [h]; rfl
  · show it.differenceAll.map _ = _; rw [h]; rfl
  · show it.intersectionAll.map _ = _; rw [h]; rfl

example : ((calls MapIter.next 1 (MapIter.new exScan)).2).debug fmtU32 fmtNat
    = some "[(500, 2)]" := by decide +kernel

/-! ### Sets -/

theorem unitText_eq (ft : Fmt T) : (fun x : T => entryText ft fmtUnit (x, ())) = unitText ft := by
  funext x
  unfold entryText unitText fmtUnit
  cases ft x with
  | none => rfl
  | some t =>
    show some (t ++ ": " ++ "()") = some (t ++ ": ()")
    rw [String.append_assoc]
    rfl

theorem entryText_unit (ft : Fmt T) (e : T × Unit) :
    entryText ft fmtUnit e = unitText ft e.1 := by
  rw [← unitText_eq]

theorem printsAsSet {ft : Fmt T} {es : List (T × Unit)} {out : Option String}
    (h : Prints "{" "}" (entryText ft fmtUnit) es out) :
    PrintsAsSet "{" "}" (unitText ft) (SetIter.new es) out := by
  refine ⟨es.map (·.1), fun n => (C46_iter true es n).1, ?_⟩
  rw [← Prints.map]
  exact h.congr (fun e _ => entryText_unit ft e)

/-- Scanning sets print like a map to `()`. -/
theorem C57_scanning_set (ft : Fmt T) (s : ScanningSet T) :
    PrintsAsSet "{" "}" (unitText ft) s.iter (s.debug ft) := printsAsSet (debugMap_self ft fmtUnit _)

/-- The general hash set prints like a list, not like the other sets (the part of the claim about one
notation is refuted by `C57_one_notation_counterexample`). -/
theorem C57_common_set_partial (ft : Fmt T) (s : CommonSet T) :
    PrintsAsSet "[" "]" ft s.iter (s.debug ft) := by
  refine ⟨s.map.table.entries.map (·.1), fun n => (C46_iter true _ n).1, ?_⟩
  have h : s.iter.items = s.map.table.entries.map (·.1) := by
    simp [CommonSet.iter, SetIter.items, SetIter.new]
  unfold CommonSet.debug
  rw [h]
  exact debugList_prints ft _

theorem C57_integer_set (ft : Fmt Int) (s : IntegerSet) :
    PrintsAsSet "{" "}" (unitText ft) s.iter (s.debug ft) := printsAsSet (debugMap_self ft fmtUnit _)

theorem C57_length_set (ft : Fmt T) (s : LengthSet T) :
    PrintsAsSet "{" "}" (unitText ft) s.iter (s.debug ft) := printsAsSet (debugMap_self ft fmtUnit _)

theorem C57_left_slice_set (ft : Fmt Bytes) (s : LeftSliceSet) :
    PrintsAsSet "{" "}" (unitText ft) s.iter (s.debug ft) := printsAsSet (debugMap_self ft fmtUnit _)

theorem C57_right_slice_set (ft : Fmt Bytes) (s : RightSliceSet) :
    PrintsAsSet "{" "}" (unitText ft) s.iter (s.debug ft) := printsAsSet (debugMap_self ft fmtUnit _)

theorem C57_integer_range_set (ft : Fmt Int) (s : IntegerRangeSet) :
    PrintsAsSet "{" "}" (unitText ft) s.iter (s.debug ft) := printsAsSet (debugMap_self ft fmtUnit _)

def fmtInt : Fmt Int := fun n => some (toString n)

/-- The same three elements, printed by two kinds of set. -/
theorem set_texts :
    (ScanningSet.fromVec [1, 2, 3] : ScanningSet Int).debug fmtInt
      = some "{1: (), 2: (), 3: ()}" ∧
    (CommonSet.fromVecWithHasher checkedEnv IdxTy.u8 otherTy.enc [1, 2, 3] demoHasher).map
      (·.debug fmtInt) = .ok (some "[1, 3, 2]") := by
  constructor <;> decide +kernel

/-- There is no single notation (brackets and element text) in which both the scanning sets and the
general hash sets of one element type are printed. -/
theorem C57_one_notation_counterexample :
    ¬ ∃ (opening closing : String) (text : Fmt Int),
      (∀ payload : List Int,
        PrintsAsSet opening closing text (ScanningSet.fromVec payload).iter
          ((ScanningSet.fromVec payload).debug fmtInt)) ∧
      (∀ (payload : List Int) (s : CommonSet Int),
        CommonSet.fromVecWithHasher checkedEnv IdxTy.u8 otherTy.enc payload demoHasher = .ok s →
        PrintsAsSet opening closing text s.iter (s.debug fmtInt)) := by
  rintro ⟨o, c, text, h0, h⟩
  obtain ⟨es, he, hp⟩ := h0 []
  have hnil : es = [] := by
    cases es with
    | nil => rfl
    | cons e es =>
      have := he 1
      simp [calls, firstCalls, ScanningSet.iter, SetIter.next, SetIter.new,
        ScanningSet.fromVec, ScanningMap.fromVec, unitPayload] at this
  subst hnil
  have hoc : o ++ c = "{}" := by
    have h1 : ((ScanningSet.fromVec [] : ScanningSet Int).debug fmtInt)
        = some "{}" := by decide +kernel
    unfold Prints listing at hp
    simp only [List.mapM_nil, pure, h1, Option.some.injEq, String.intercalate_nil,
      String.append_empty] at hp
    exact hp.symm
  obtain ⟨s, hs⟩ := Res.of_isOk (r := CommonSet.fromVecWithHasher checkedEnv IdxTy.u8 otherTy.enc [1, 2, 3] demoHasher)
    (by decide +kernel)
  have ht := set_texts.2
  rw [hs] at ht
  simp only [Res.map_ok, Res.ok.injEq] at ht
  obtain ⟨es, _, hp⟩ := h _ s hs
  unfold Prints listing at hp
  rw [ht] at hp
  cases hm : es.mapM text with
  | none => rw [hm] at hp; simp at hp
  | some ts =>
    rw [hm] at hp
    simp only [Option.some.injEq] at hp
    have h1 := congrArg String.toList hoc
    have h2 := congrArg String.toList hp
    have e1 : ("{}" : String).toList = ['{', '}'] := by decide
    have e2 : ("[1, 3, 2]" : String).toList
        = ['[', '1', ',', ' ', '3', ',', ' ', '2', ']'] := by decide
    rw [String.toList_append, e1] at h1
    rw [String.toList_append, String.toList_append, e2] at h2
    cases ho : o.toList with
    | nil =>
      rw [ho, List.nil_append] at h1
      rw [h1] at h2
      have := congrArg List.getLast? h2
      simp at this
    | cons a as =>
      rw [ho] at h1 h2
      simp only [List.cons_append, List.cons.injEq] at h1 h2
      exact absurd (h2.1.trans h1.1) (by decide)

end FC
