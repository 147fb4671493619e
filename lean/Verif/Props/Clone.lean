import Verif.Props.SetIter
import Verif.Props.SetGet
import Verif.Lemmas.Clone
import Verif.Props.History
import Verif.Props.UserCode
import Verif.Examples

/-
C58: a clone has the contents of its original and is independent of it.
-/

set_option autoImplicit false

namespace FC
variable {σ K V Q : Type}

/-! ### Maps: any history that clones -/

theorem TableOK.of_filed {h : K → Nat} {t : HashTable K V} (ht : Filed h t) : TableOK h t := by
  obtain ⟨g, hg, hh⟩ := ht
  refine ⟨hg.pos, hg.len, hg.inv.bounds, fun j e he i s hs => ?_⟩
  rw [← hg.inv.mem j e he i s hs, hh e (List.mem_of_getElem? he)]

theorem Filed.clone {h : K → Nat} {ck : K → K} (hh : ∀ k, h (ck k) = h k) (cv : V → V)
    {t : HashTable K V} (ht : Filed h t) : Filed h (t.clone ck cv) :=
  ⟨h, (TableOK.of_filed ht).clone hh cv, fun _ _ => rfl⟩

/-- `ck` is the key type's `Clone`: it gives an equal key. `cv` is any function. -/
theorem C58_scanning_map (P : Probe K Q) (heq : LawfulEq P.eq) (payload : List (K × V))
    (hd : DistinctProbes P.eq P.borrow payload) (ck : K → K) (cv : V → V)
    (hck : ∀ k, P.eq (P.borrow (ck k)) (P.borrow k) = true) :
    CloneRefines (scanningApi P) (ScanningMap.clone ck cv) P.eq P.borrow ck cv
      (ScanningMap.fromVec payload) payload :=
  (scanning_scanMap P).cloneRefines heq hck (fun _ _ => trivial) (fun _ _ => rfl) trivial
    (List.Perm.refl _) hd

example := C58_scanning_map otherTy.probe otherTy_lawful.eq exOther exOther_distinct id (· + 100)
  otherTy_lawful.eq.refl

theorem C58_common_map [Target] (env : Env) (S : IdxTy) (P : Probe K Q) (heq : LawfulEq P.eq)
    (enc : K → List HCall) (henc : ∀ k q, P.eq q (P.borrow k) = true → P.enc q = enc k)
    (payload : List (K × V)) (hd : DistinctProbes P.eq P.borrow payload) (bh : Hasher)
    (m : CommonMap K V) (hm : CommonMap.fromVecWithHasher env S enc payload bh = .ok m) (h32 : payload.length < 2 ^ 32)
    (ck : K → K) (cv : V → V) (hck : ∀ k, P.eq (P.borrow (ck k)) (P.borrow k) = true) :
    CloneRefines (commonApi P) (CommonMap.clone ck cv) P.eq P.borrow ck cv m payload := by
  have he : ∀ k, enc (ck k) = enc k := fun k => by
    rw [← henc k _ (hck k), henc (ck k) _ (heq.refl _)]
  exact (common_scanMap P enc henc).cloneRefines heq hck
    (fun m hm => Filed.clone (fun k => by rw [he]) cv hm) (fun _ _ => rfl)
    (CommonMap.filed hm h32).1 (CommonMap.filed hm h32).2 hd

example := C58_common_map checkedEnv IdxTy.u8 otherTy.probe otherTy_lawful.eq otherTy.enc exOther_enc exOther
  exOther_distinct demoHasher exCommon exCommon_ok (by decide) id (· + 100) otherTy_lawful.eq.refl

theorem C58_integer_map [Target] (env : Env) (S : IdxTy) (payload : List (Int × V))
    (hd : (payload.map (·.1)).Nodup) (m : IntegerMap V)
    (hm : IntegerMap.fromVec env S payload = .ok m) (h32 : payload.length < 2 ^ 32) (cv : V → V) :
    CloneRefines integerApi (IntegerMap.clone cv) (fun a b => decide (a = b)) id id cv m payload :=
  integer_scanMap.cloneRefines ieq_lawful (fun _ => ieq_lawful.refl _)
    (fun _ hm => Filed.clone (fun _ => rfl) cv hm) (fun _ _ => rfl)
    (IntegerMap.filed hm h32).1 (IntegerMap.filed hm h32).2 (distinct_decide hd)

example := C58_integer_map checkedEnv IdxTy.u8 exOther exOther_nodup exInteger exInteger_ok (by decide)
  (· + 100)

theorem C58_length_map [Target] (env : Env) (S : IdxTy) (borrow : K → Q) (eq : Q → Q → Bool)
    (heq : LawfulEq eq) (lenK : K → Nat) (lenQ : Q → Nat)
    (hlen : ∀ k q, eq q (borrow k) = true → lenQ q = lenK k) (payload : List (K × V))
    (hd : DistinctProbes eq borrow payload) (m : LengthMap K V)
    (hm : LengthMap.fromVec env S lenK payload = .ok m) (h32 : payload.length < 2 ^ 32)
    (ck : K → K) (cv : V → V) (hck : ∀ k, eq (borrow (ck k)) (borrow k) = true) :
    CloneRefines (lengthApi borrow eq lenQ) (LengthMap.clone ck cv) eq borrow ck cv m payload := by
  have he : ∀ k, lenK (ck k) = lenK k := fun k => by
    rw [← hlen k _ (hck k), hlen (ck k) _ (heq.refl _)]
  exact (length_scanMap borrow eq lenK lenQ hlen).cloneRefines heq hck
    (fun _ hm => Filed.clone he cv hm) (fun _ _ => rfl)
    (LengthMap.filed hm h32).1 (LengthMap.filed hm h32).2 hd

example := C58_length_map checkedEnv IdxTy.u8 id _ lawfulEq_decide List.length List.length exBytes_len
  exBytes exBytes_distinct exLengths exLengths_ok (by decide) id (· + 100) (lawfulEq_decide.refl ·)

theorem C58_left_slice_map [Target] (env : Env) (S : IdxTy) (payload : List (Bytes × V))
    (hd : (payload.map (·.1)).Nodup) (a b : Nat) (hab : payload = [] → a ≤ b) (bh : Hasher) (m : LeftSliceMap V)
    (hm : LeftSliceMap.fromVecWithHasher env S payload a b bh = .ok m) (h32 : payload.length < 2 ^ 32) (cv : V → V) :
    CloneRefines leftApi (LeftSliceMap.clone cv) (fun a b => decide (a = b)) id id cv m payload :=
  left_scanMap.cloneRefines beq_lawful (fun _ => beq_lawful.refl _)
    (fun _ hm => hm.clone cv) (fun _ _ => rfl)
    (LeftSliceMap.built hab hm h32).1 (LeftSliceMap.built hab hm h32).2 (distinct_decide hd)

example := C58_left_slice_map checkedEnv IdxTy.u8 exBytes exBytes_nodup 1 2 (by decide) demoHasher
  exLeftSlice exLeftSlice_ok (by decide) (· + 100)

/-- Every right slice map that was built from something (C29 says which are), and the empty ones over a
range in descending order. -/
theorem C58_right_slice_map [Target] (env : Env) (S : IdxTy) (payload : List (Bytes × V))
    (hd : (payload.map (·.1)).Nodup) (a b : Nat) (hne : payload = [] → b ≤ a) (ha : a < usz) (hb : b < usz)
    (bh : Hasher) (m : RightSliceMap V)
    (hm : RightSliceMap.fromVecWithHasher env S payload a b bh = .ok m) (h32 : payload.length < 2 ^ 32)
    (cv : V → V) (oc : Bool) :
    CloneRefines (rightApi oc) (RightSliceMap.clone cv) (fun a b => decide (a = b)) id id cv
      m payload := by
  obtain ⟨_, _, h, hp⟩ := RightSliceMap.built hne ha hb hm h32
  exact (right_scanMap oc).cloneRefines beq_lawful (fun _ => beq_lawful.refl _)
    (fun _ hm => hm.clone cv) (fun _ _ => rfl) h hp (distinct_decide hd)

example := C58_right_slice_map checkedEnv IdxTy.u8 exBytes exBytes_nodup 2 1 (by decide) (by decide)
  (by decide) demoHasher _
  (Res.built (r := RightSliceMap.fromVecWithHasher checkedEnv IdxTy.u8 exBytes 2 1 demoHasher)
    (by decide +kernel)) (by decide) (· + 100) true

/-- A non-empty range map; the empty one panics on some probes (C25). -/
theorem C58_range_map [Target] (oc oc' : Bool) (t : IntTy) (hb : 0 < t.bits) (payload : List (Int × V))
    (hne : payload ≠ []) (hr : ∀ e ∈ payload, t.InRange e.1) (hd : (payload.map (·.1)).Nodup)
    (m : IntegerRangeMap V) (hm : IntegerRangeMap.fromVec oc t payload = .ok m) (cv : V → V) :
    CloneRefines (rangeApi oc' t) (IntegerRangeMap.clone cv) (fun a b => decide (a = b)) id id cv
      m payload := by
  obtain ⟨h1, hp⟩ := rangeFromVec_rangeOK hb hne hr hd hm
  exact (range_scanMap oc' t).cloneRefines ieq_lawful (fun _ => ieq_lawful.refl _)
    (fun _ hm => hm.clone cv) (fun _ _ => rfl) h1 hp (distinct_decide hd)

example := C58_range_map true false IntTy.i8 (by decide) exInts (by decide) exInts_inRange exInts_nodup
  exIntRange exIntRange_ok (· + 100)

theorem C58_frozen_map [Target] (env env' : Env) (ty : KeyTy K) (hty : LawfulKey ty)
    (payload : List (K × V)) (hcap : payload.length < 2 ^ 32) (hd : DistinctKeys ty.eq payload)
    (bh : Hasher) (m : FrozenMap K V) (hm : FrozenMap.new env ty payload bh = .ok m)
    (ck : K → K) (cv : V → V) (hck : ∀ k, ty.eq (ck k) k = true) :
    CloneRefines (frozenApi env' ty) (FrozenMap.clone ck cv) ty.eq id ck cv m payload := by
  have hb := new_built env hty hcap hm
  exact (frozen_scanMap env' hty).cloneRefines hty.eq hck (fun _ hm => hm.clone hty hck cv)
    (fun m _ => FrozenMap.clone_entries hty hck cv m) (hb.good (Or.inr hd)) hb.perm hd

/-- A user clones a map, writes to the clone and to the original, and reads both. -/
example : (do let m ← FrozenMap.new checkedEnv u32Ty exRange demoHasher
              return (← shelfRun (frozenApi checkedEnv u32Ty).step (FrozenMap.clone id (· + 100)) [m]
                [.clone 0, .on 1 (.get 12), .on 1 (.getMut 12 7), .on 0 (.get 12), .on 1 (.get 12),
                 .on 0 (.getMut 10 8), .on 1 (.get 10), .clone 1, .on 2 (.get 12), .on 3 .len]).1) =
    .ok [none, some (.value (some 101)), some (.value (some 101)), some (.value (some 1)),
      some (.value (some 7)), some (.value (some 2)), some (.value (some 102)), none,
      some (.value (some 107)), none] := by
  decide +kernel

example : ∃ m, FrozenMap.new checkedEnv u32Ty exRange demoHasher = .ok m ∧
    CloneRefines (frozenApi releaseEnv u32Ty) (FrozenMap.clone id (· + 100)) u32Ty.eq id id (· + 100)
      m exRange := by
  obtain ⟨m, hm⟩ := exRange_ok
  exact ⟨m, hm, C58_frozen_map checkedEnv releaseEnv u32Ty u32Ty_lawful exRange (by decide)
    exRange_distinct demoHasher m hm id _ (fun k => u32Ty_lawful.eq.refl k)⟩

/-! ### Whatever a map holds, its clone answers alike -/

/-- Repeated keys or not, freshly built or written to: a lookup in the clone finds the clone of what
the lookup finds in the original, and both iterate in the same order. -/
theorem C58_frozen_map_alike [Target] (env : Env) (ty : KeyTy K) (hty : LawfulKey ty) (ck : K → K)
    (cv : V → V) (hck : ∀ k, ty.eq (ck k) k = true) (m : FrozenMap K V) :
    (∀ k, (m.clone ck cv).getKeyValue env ty k
      = (m.getKeyValue env ty k).map (Option.map fun e => (ck e.1, ⟨e.2.idx, cv e.2.val⟩))) ∧
    ((m.clone ck cv).iter ty).fold (fun l e => l ++ [e]) []
      = ((m.iter ty).fold (fun l e => l ++ [e]) []).map (fun e => (ck e.1, cv e.2)) ∧
    (m.clone ck cv).len = m.len := by
  refine ⟨fun k => FrozenMap.clone_kv env hty hck cv m k, ?_, FrozenMap.clone_len ck cv m⟩
  have hf : ∀ (l acc : List (K × V)), l.foldl (fun l e => l ++ [e]) acc = acc ++ l := by
    intro l
    induction l with
    | nil => simp
    | cons a l ih => intro acc; simp [ih]
  simp only [FrozenMap.iter, FrozenMap.clone_entries hty hck cv m, MapIter.new,
    MapIter.fold_eq _ _ _ 0 _ rfl, List.drop_zero, hf, List.nil_append, Dict.clone]

example := C58_frozen_map_alike checkedEnv u32Ty u32Ty_lawful id (· + 100) u32Ty_lawful.eq.refl
  (.u32Range ⟨0, 3, [(0, 1), (0, 2), (3, 3), (3, 4)]⟩)

theorem sameOrder (ct : K → K) (es : List (K × Unit)) :
    SameOrder ct (SetIter.new es) (SetIter.new (cloneEntries ct id es)) := by
  intro n
  rw [SetIter.calls_eq, SetIter.calls_eq]
  simp [firstCalls, cloneEntries, Function.comp_def]

theorem isSome_map_map (ct : K → K) (r : Res (Option K)) :
    (r.map (Option.map ct)).map Option.isSome = r.map Option.isSome := by
  cases r with
  | ok o => cases o <;> rfl
  | panic => rfl
  | ub => rfl

/-- The same for sets. -/
theorem C58_frozen_set [Target] (env : Env) (ty : KeyTy K) (hty : LawfulKey ty) (ct : K → K)
    (hct : ∀ k, ty.eq (ct k) k = true) (s : FrozenSet K) :
    (∀ x, (s.clone ct).contains env ty x = s.contains env ty x) ∧
    (∀ x, (s.clone ct).get env ty x = (s.get env ty x).map (Option.map ct)) ∧
    SameOrder ct (s.iter ty) ((s.clone ct).iter ty) ∧
    (s.clone ct).len = s.len := by
  refine ⟨fun x => s.clone_contains env hty hct x, fun x => ?_, ?_, ?_⟩
  · rw [FrozenSet.get_toMap, FrozenSet.get_toMap, FrozenSet.clone_toMap,
      FrozenMap.clone_kv env hty hct id, keyOf_clone]
  · rw [FrozenSet.iter_toMap, FrozenSet.iter_toMap, FrozenSet.clone_toMap,
      FrozenMap.clone_entries hty hct id]
    exact sameOrder ct _
  · rw [FrozenSet.len_toMap, FrozenSet.len_toMap, FrozenSet.clone_toMap, FrozenMap.clone_len]

example := C58_frozen_set checkedEnv u32Ty u32Ty_lawful id u32Ty_lawful.eq.refl
  (.u32Range ⟨⟨0, 3, [(0, ()), (1, ()), (2, ()), (3, ())]⟩⟩)

/-- The specialized sets, whatever they hold and whatever they are asked with. -/
theorem C58_scanning_set (P : Probe K Q) (ct : K → K)
    (hct : ∀ q x, P.eq q (P.borrow (ct x)) = P.eq q (P.borrow x)) (s : ScanningSet K) :
    (∀ q, (s.clone ct).get P q = (s.get P q).map (Option.map ct)) ∧
    (∀ q, (s.clone ct).contains P q = s.contains P q) ∧
    SameOrder ct s.iter (s.clone ct).iter ∧ (s.clone ct).len = s.len := by
  have hg : ∀ q, (s.clone ct).get P q = (s.get P q).map (Option.map ct) := fun q => by
    unfold ScanningSet.get ScanningSet.clone
    rw [ScanningMap.clone_kv hct, keyOf_clone]
  refine ⟨hg, fun q => ?_, sameOrder ct _, List.length_map _⟩
  unfold ScanningSet.contains
  rw [hg, isSome_map_map]

theorem C58_common_set (P : Probe K Q) (ct : K → K)
    (hct : ∀ q x, P.eq q (P.borrow (ct x)) = P.eq q (P.borrow x)) (s : CommonSet K) :
    (∀ q, (s.clone ct).get P q = (s.get P q).map (Option.map ct)) ∧
    (∀ q, (s.clone ct).contains P q = s.contains P q) ∧
    SameOrder ct s.iter (s.clone ct).iter ∧ (s.clone ct).len = s.len := by
  have hg : ∀ q, (s.clone ct).get P q = (s.get P q).map (Option.map ct) := fun q => by
    unfold CommonSet.get CommonSet.clone
    rw [CommonMap.clone_kv hct, keyOf_clone]
  refine ⟨hg, fun q => ?_, sameOrder ct _, List.length_map _⟩
  unfold CommonSet.contains
  rw [hg, isSome_map_map]

/-- A clone that marks the note of an element and leaves its number. -/
example := C58_common_set noted (fun x => (x.1, x.2 ++ "'")) (fun _ _ => rfl) exNotedSet
example : (exNotedSet.clone (fun x => (x.1, x.2 ++ "'"))).get noted 9 = .ok (some (9, "d'")) := by
  decide +kernel

example := C58_scanning_set noted (fun x => (x.1, x.2 ++ "'")) (fun _ _ => rfl)
  (ScanningSet.fromVec exNoted)

theorem C58_length_set (borrow : K → Q) (eq : Q → Q → Bool) (lenQ : Q → Nat) (ct : K → K)
    (hct : ∀ q x, eq q (borrow (ct x)) = eq q (borrow x)) (s : LengthSet K) :
    (∀ q, (s.clone ct).get borrow eq lenQ q = (s.get borrow eq lenQ q).map (Option.map ct)) ∧
    (∀ q, (s.clone ct).contains borrow eq lenQ q = s.contains borrow eq lenQ q) ∧
    SameOrder ct s.iter (s.clone ct).iter ∧ (s.clone ct).len = s.len := by
  have hg : ∀ q, (s.clone ct).get borrow eq lenQ q
      = (s.get borrow eq lenQ q).map (Option.map ct) := fun q => by
    unfold LengthSet.get LengthSet.clone
    rw [LengthMap.clone_kv hct, keyOf_clone]
  refine ⟨hg, fun q => ?_, sameOrder ct _, List.length_map _⟩
  unfold LengthSet.contains
  rw [hg, isSome_map_map]

example := C58_length_set Prod.fst (fun a b : Bytes => decide (a = b)) List.length
  (fun x : Bytes × String => (x.1, x.2 ++ "'")) (fun _ _ => rfl) exNotedLengths

/-- Integers and strings clone to themselves, and so do the sets for them. -/
theorem C58_integer_and_slice_sets [Target] :
    (∀ s : IntegerSet, (∀ q, s.clone.get q = s.get q) ∧ (∀ q, s.clone.contains q = s.contains q) ∧
      SameOrder id s.iter s.clone.iter ∧ s.clone.len = s.len) ∧
    (∀ s : LeftSliceSet, (∀ q, s.clone.get q = s.get q) ∧
      (∀ q, s.clone.contains q = s.contains q) ∧
      SameOrder id s.iter s.clone.iter ∧ s.clone.len = s.len) ∧
    (∀ (oc : Bool) (s : RightSliceSet), (∀ q, s.clone.get oc q = s.get oc q) ∧
      (∀ q, s.clone.contains oc q = s.contains oc q) ∧
      SameOrder id s.iter s.clone.iter ∧ s.clone.len = s.len) ∧
    (∀ (oc : Bool) (t : IntTy) (s : IntegerRangeSet), (∀ q, s.clone.get oc t q = s.get oc t q) ∧
      (∀ q, s.clone.contains oc t q = s.contains oc t q) ∧
      SameOrder id s.iter s.clone.iter ∧ s.clone.len = s.len) := by
  have he : ∀ {A : Type} (l : List (A × Unit)), cloneEntries id id l = l := fun l => by
    simp [cloneEntries]
  have h1 : ∀ s : IntegerSet, s.clone = s := fun s => by
    simp [IntegerSet.clone, IntegerMap.clone, HashTable.clone, he]
  have h2 : ∀ s : LeftSliceSet, s.clone = s := fun s => by
    simp [LeftSliceSet.clone, LeftSliceMap.clone, HashTable.clone, he]
  have h3 : ∀ s : RightSliceSet, s.clone = s := fun s => by
    simp [RightSliceSet.clone, RightSliceMap.clone, HashTable.clone, he]
  have h4 : ∀ s : IntegerRangeSet, s.clone = s := fun s => by
    simp [IntegerRangeSet.clone, IntegerRangeMap.clone, he]
  have ho : ∀ {A : Type} (it : SetIter A), SameOrder id it it := fun it n => by simp
  refine ⟨fun s => ?_, fun s => ?_, fun oc s => ?_, fun oc t s => ?_⟩
  · rw [h1]; exact ⟨fun _ => rfl, fun _ => rfl, ho _, rfl⟩
  · rw [h2]; exact ⟨fun _ => rfl, fun _ => rfl, ho _, rfl⟩
  · rw [h3]; exact ⟨fun _ => rfl, fun _ => rfl, ho _, rfl⟩
  · rw [h4]; exact ⟨fun _ => rfl, fun _ => rfl, ho _, rfl⟩

/-- Repeated keys: a u32 map whose lookups are off (C04) clones to one that is off alike. -/
example : (do let m ← FrozenMap.new checkedEnv u32Ty [(0, 1), (0, 2), (3, 3), (3, 4)] demoHasher
              return ((← m.get checkedEnv u32Ty 2).map Ref.val,
                (← (m.clone id (· + 100)).get checkedEnv u32Ty 2).map Ref.val))
    = .ok (some 3, some 103) := by decide +kernel

/-! ### A `Clone` of the caller's own that misbehaves -/

theorem UMap.cloneSession_behaves {p : Prop} {u : UserCode σ K Q} (hu : u.SafeLookup p)
    {ck : K → Call σ K} {cv : V → Call σ V} {Rk : K → K → Prop} {Rv : V → V → Prop}
    (hck : ∀ k, Behaves False p (ck k) (Rk k)) (hcv : ∀ v, Behaves False p (cv v) (Rv v))
    {payload : List (K × V)} {build : Call σ (UMap K V)}
    (hb : Behaves False p build (fun m => m.OK ∧ m.entries.Perm payload)) (ops ops' : List (MapOp V Q)) :
    Behaves (¬ u.EqOK ∧ ∃ op ∈ ops ++ ops', op.isMany) (p ∨ ∃ op ∈ ops ++ ops', op.isIndex)
      (UMap.cloneSession u ck cv build ops ops')
      (fun outs => ∃ d c : List (K × V), d.Perm payload ∧
        List.Forall₂ (fun e e' => Rk e.1 e'.1 ∧ Rv e.2 e'.2) d c ∧
        Loose.Run u.MayMatch c ops outs.1 ∧ Loose.Run u.MayMatch d ops' outs.2) := by
  have hpair : ∀ e : K × V, Behaves False p
      (do return (← ck e.1, ← cv e.2) : Call σ (K × V)) (fun e' => Rk e.1 e'.1 ∧ Rv e.2 e'.2) :=
    fun e => (hck e.1).bind fun _ h1 => (hcv e.2).bind fun _ h2 => .pure ⟨h1, h2⟩
  have hclone : ∀ m : UMap K V, m.OK → Behaves False p (m.clone ck cv) (fun c => c.OK ∧
      List.Forall₂ (fun e e' => Rk e.1 e'.1 ∧ Rv e.2 e'.2) m.entries c.entries) := by
    intro m hm
    cases m with
    | scanning es =>
      exact (Behaves.mapList (fun e _ => hpair e)).bind fun es' h => .pure ⟨trivial, h⟩
    | hashed t =>
      refine (Behaves.mapList (fun e _ => hpair e)).bind fun es' h => .pure ⟨⟨hm.pos, hm.len, ?_⟩, h⟩
      intro i s hs
      have := hm.bounds i s hs
      rw [h.length_eq] at this
      exact this
  refine (hb.mono False.elim Or.inl (fun _ h => h)).bind fun m hm => ?_
  refine ((hclone m hm.1).mono False.elim Or.inl (fun _ h => h)).bind fun c hc => ?_
  refine ((UMap.run_behaves (U := ¬ u.EqOK ∧ ∃ op ∈ ops ++ ops', op.isMany) hu ops
    (fun op h1 h2 => ?_) c hc.1).mono id ?_ (fun _ h => h)).bind fun r hr => ?_
  · by_cases h : u.EqOK
    · exact Or.inl h
    · exact Or.inr ⟨h, op, List.mem_append_left _ h1, h2⟩
  · rintro (h | ⟨op, h1, h2⟩)
    · exact Or.inl h
    · exact Or.inr ⟨op, List.mem_append_left _ h1, h2⟩
  refine ((UMap.run_behaves (U := ¬ u.EqOK ∧ ∃ op ∈ ops ++ ops', op.isMany) hu ops'
    (fun op h1 h2 => ?_) m hm.1).mono id ?_ (fun _ h => h)).bind fun r' hr' => ?_
  · by_cases h : u.EqOK
    · exact Or.inl h
    · exact Or.inr ⟨h, op, List.mem_append_right _ h1, h2⟩
  · rintro (h | ⟨op, h1, h2⟩)
    · exact Or.inl h
    · exact Or.inr ⟨op, List.mem_append_right _ h1, h2⟩
  exact .pure ⟨m.entries, c.entries, hm.2, hc.2, hr.2.1, hr'.2.1⟩

/-- The derived `Clone` over a key type all of whose code may misbehave, `Clone` included: answers may
change from call to call and clones need not equal what they were cloned from. There is no undefined
behaviour beyond the exception of C56, and no panic but the caller's own (`p`, which must also allow
for a payload of 2^31 pairs or more) and that of indexing. The
clone holds, in the order of the original, one pair for every pair of the original, made of what the
two calls of `clone` returned (any relations `Rk`, `Rv` those calls establish hold between them). What
is done to the clone is not seen in the original. -/
theorem C58_misbehaving [Target] {p : Prop} (env : Env) (u : UserCode σ K K) (hu : u.Safe p)
    (ck : K → Call σ K) (cv : V → Call σ V) (Rk : K → K → Prop) (Rv : V → V → Prop)
    (hck : ∀ k, Behaves False p (ck k) (Rk k)) (hcv : ∀ v, Behaves False p (cv v) (Rv v))
    (payload : List (K × V)) (hbig : 2 ^ 31 ≤ payload.length → p) (ops ops' : List (MapOp V K)) :
    Behaves (¬ u.EqOK ∧ ∃ op ∈ ops ++ ops', op.isMany) (p ∨ ∃ op ∈ ops ++ ops', op.isIndex)
      (UMap.cloneSession u ck cv (UMap.facade env u payload) ops ops')
      (fun outs => ∃ d c : List (K × V), d.Perm payload ∧
        List.Forall₂ (fun e e' => Rk e.1 e'.1 ∧ Rv e.2 e'.2) d c ∧
        Loose.Run u.MayMatch c ops outs.1 ∧ Loose.Run u.MayMatch d ops' outs.2) :=
  UMap.cloneSession_behaves hu.toSafeLookup hck hcv (UMap.facade_behaves env hu hbig) ops ops'

/-- A `Clone` that adds the number of calls so far to every key it clones. -/
def moodyClone (k : Nat) : Call Nat Nat := fun s => .ok (k + s, s + 1)

/-- The same for scanning maps. -/
theorem C58_misbehaving_scanning {p : Prop} (u : UserCode σ K Q) (hu : u.Safe p)
    (ck : K → Call σ K) (cv : V → Call σ V) (Rk : K → K → Prop) (Rv : V → V → Prop)
    (hck : ∀ k, Behaves False p (ck k) (Rk k)) (hcv : ∀ v, Behaves False p (cv v) (Rv v))
    (payload : List (K × V)) (ops ops' : List (MapOp V Q)) :
    Behaves (¬ u.EqOK ∧ ∃ op ∈ ops ++ ops', op.isMany) (p ∨ ∃ op ∈ ops ++ ops', op.isIndex)
      (UMap.cloneSession u ck cv (pure (.scanning payload)) ops ops')
      (fun outs => ∃ d c : List (K × V), d.Perm payload ∧
        List.Forall₂ (fun e e' => Rk e.1 e'.1 ∧ Rv e.2 e'.2) d c ∧
        Loose.Run u.MayMatch c ops outs.1 ∧ Loose.Run u.MayMatch d ops' outs.2) :=
  UMap.cloneSession_behaves hu.toSafeLookup hck hcv
    (.pure (a := UMap.scanning payload) ⟨trivial, .refl _⟩) ops ops'

example := C58_misbehaving_scanning moodyCode moodyCode_safe moodyClone pure (· ≤ ·) (· = ·)
  (fun k s => by simp [moodyClone]) (fun _ => .pure rfl) [(1, 10), (2, 20), (3, 30)]
  [.getMut 1 99, .iter] [.len, .iter]

/-- The same for hash-based maps of every kind: `u` is the code each makes of the caller's
(Model/UserCode). -/
theorem C58_misbehaving_hashed [Target] {p : Prop} (env : Env) (S : IdxTy) (u : UserCode σ K Q)
    (hu : u.Safe p) (ck : K → Call σ K) (cv : V → Call σ V) (Rk : K → K → Prop) (Rv : V → V → Prop)
    (hck : ∀ k, Behaves False p (ck k) (Rk k)) (hcv : ∀ v, Behaves False p (cv v) (Rv v))
    (payload : List (K × V)) (hbig : ¬ S.Holds payload.length → p) (ops ops' : List (MapOp V Q)) :
    Behaves (¬ u.EqOK ∧ ∃ op ∈ ops ++ ops', op.isMany) (p ∨ ∃ op ∈ ops ++ ops', op.isIndex)
      (UMap.cloneSession u ck cv (UMap.fromVec env S u payload) ops ops')
      (fun outs => ∃ d c : List (K × V), d.Perm payload ∧
        List.Forall₂ (fun e e' => Rk e.1 e'.1 ∧ Rv e.2 e'.2) d c ∧
        Loose.Run u.MayMatch c ops outs.1 ∧ Loose.Run u.MayMatch d ops' outs.2) :=
  UMap.cloneSession_behaves hu.toSafeLookup hck hcv (UMap.fromVec_behaves env hu hbig) ops ops'

example := C58_misbehaving_hashed checkedEnv IdxTy.u8 moodyCode moodyCode_safe moodyClone pure (· ≤ ·) (· = ·)
  (fun k s => by simp [moodyClone]) (fun _ => .pure rfl) [(1, 10), (2, 20), (3, 30)]
  (fun h => h ⟨255, by decide, by decide⟩)
  [.getMut 1 99, .iter] [.len, .iter]

example : UMap.cloneSession moodyCode moodyClone pure (UMap.facade checkedEnv moodyCode
      [(1, 10), (2, 20), (3, 30), (4, 40), (5, 50)]) [.getMut 1 99, .iter] [.len, .iter] 0
    = .ok (([.value (some 20), .items [(15, 50), (14, 30), (14, 99), (14, 10), (18, 40)]],
        [.number 5, .items [(5, 50), (3, 30), (2, 20), (1, 10), (4, 40)]]), 17) := by decide +kernel

example : Behaves False False
    (UMap.cloneSession moodyCode moodyClone pure (UMap.facade checkedEnv moodyCode
      [(1, 10), (2, 20), (3, 30), (4, 40), (5, 50)]) [.getMut 1 99, .iter] [.len, .iter])
    (fun outs => ∃ d c : List (Nat × Nat), d.Perm [(1, 10), (2, 20), (3, 30), (4, 40), (5, 50)] ∧
      List.Forall₂ (fun e e' => e.1 ≤ e'.1 ∧ e.2 = e'.2) d c ∧
      Loose.Run moodyCode.MayMatch c [.getMut 1 99, .iter] outs.1 ∧
      Loose.Run moodyCode.MayMatch d ([.len, .iter] : List (MapOp Nat Nat)) outs.2) :=
  (C58_misbehaving checkedEnv moodyCode moodyCode_safe moodyClone pure (· ≤ ·) (· = ·)
    (fun k s => by simp [moodyClone]) (fun _ => .pure rfl) _ (by decide) _ _).mono
    (by simp [MapOp.isMany]) (by simp [MapOp.isIndex]) (fun _ h => h)

end FC
