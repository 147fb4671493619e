import Verif.Lemmas.UserCode

/-
For trait implementations that are functions of their arguments, Model/UserCode.lean is
Model/Maps.lean: the same constructions, lookups, `get_many_mut` and `==`.
-/

set_option autoImplicit false

namespace FC
variable [Target]
variable {σ K V Q α β : Type}

/-- User code given by functions. -/
def UserCode.det (size slot : K → Res Nat) (probe : Q → Res Nat) (eq : Q → Q → Bool)
    (borrow : K → Q) : UserCode σ K Q where
  sizeCode k := Call.lift (size k)
  slotCode k := Call.lift (slot k)
  probeCode q := Call.lift (probe q)
  isMatch q k := pure (eq q (borrow k))
  isSame a b := pure (eq a b)

omit [Target] in
theorem Call.lift_bind (r : Res α) (f : α → Call σ β) (s : σ) :
    ((Call.lift r : Call σ α) >>= f) s = (r >>= fun a => f a s) := by
  cases r <;> rfl

omit [Target] in
theorem Call.pure_bind' (a : α) (f : α → Call σ β) (s : σ) :
    ((pure a : Call σ α) >>= f) s = f a s := rfl

omit [Target] in
theorem Call.mapList_lift (f : α → Res β) (l : List α) (s : σ) :
    Call.mapList (fun a => (Call.lift (f a) : Call σ β)) l s
      = (Res.mapList f l).map (fun bs => (bs, s)) := by
  induction l with
  | nil => rfl
  | cons a l ih =>
    unfold Call.mapList Res.mapList
    rw [Call.lift_bind]
    cases f a with
    | ok b =>
      simp only [Res.ok_bind]
      rw [Call.bind_apply, ih]
      cases Res.mapList f l <;> rfl
    | panic => rfl
    | ub => rfl

theorem HashTable.newU_lift (env : Env) (S : IdxTy) (payload : List (K × V)) (n : Nat)
    (hash : K → Res Nat) (s : σ) :
    HashTable.newU env S payload n (fun k => (Call.lift (hash k) : Call σ Nat)) s
      = (HashTable.new env S payload n hash).map (fun T => (T, s)) := by
  unfold HashTable.newU HashTable.new
  split
  · rfl
  · rw [Call.lift_bind]
    cases Res.unwrap S.maxUsize with
    | panic => rfl
    | ub => rfl
    | ok cap =>
      show (if payload.length > cap then _ else _ : Call σ (HashTable K V)) s = Res.map _ (if payload.length > cap then _ else _)
      split
      · rfl
      · have : (fun e : K × V => do
            let code ← (Call.lift (hash e.1) : Call σ Nat)
            let slot ← Call.lift (umod code n)
            return (⟨slot, e⟩ : PrepItem K V))
            = fun e => Call.lift (prepItem n hash e) := by
          funext e s
          rw [Call.lift_bind]
          unfold prepItem
          cases hash e.1 with
          | ok code =>
            simp only [Res.ok_bind]
            rw [Call.lift_bind]
            cases umod code n <;> rfl
          | panic => rfl
          | ub => rfl
        rw [this, Call.bind_apply, Call.mapList_lift]
        cases Res.mapList (prepItem n hash) payload with
        | panic => rfl
        | ub => rfl
        | ok prep =>
          simp only [Res.ok_bind, Res.map_ok]
          rw [Call.lift_bind]
          cases fillLoop env.oc S (env.srt.run PrepItem.slot prep).reverse
            (List.replicate n ⟨0, 0⟩) [] 0 with
          | panic => rfl
          | ub => rfl
          | ok r =>
            simp only [Res.ok_bind]
            split
            · rfl
            · rfl

theorem UMap.fromVec_det (env : Env) (S : IdxTy) (size slot : K → Res Nat) (probe : Q → Res Nat)
    (eq : Q → Q → Bool) (borrow : K → Q) (payload : List (K × V)) (s : σ) :
    UMap.fromVec env S (UserCode.det size slot probe eq borrow) payload s
      = (do
          let codes ← Res.mapList (fun e : K × V => size e.1) payload
          let analysis ← analyzeHashCodes codes
          let T ← HashTable.new env S payload analysis.numHashSlots slot
          return (.hashed T, s)) := by
  unfold UMap.fromVec
  rw [Call.bind_apply]
  show (Call.mapList (fun e : K × V => (Call.lift (size e.1) : Call σ Nat)) payload s >>= _) = _
  rw [Call.mapList_lift]
  cases Res.mapList (fun e : K × V => size e.1) payload with
  | panic => rfl
  | ub => rfl
  | ok codes =>
    simp only [Res.ok_bind, Res.map_ok]
    rw [Call.lift_bind]
    cases analyzeHashCodes codes with
    | panic => rfl
    | ub => rfl
    | ok a =>
      simp only [Res.ok_bind]
      rw [Call.bind_apply]
      show (HashTable.newU env S payload _ (fun k => (Call.lift (slot k) : Call σ Nat)) s >>= _) = _
      rw [HashTable.newU_lift]
      cases HashTable.new env S payload a.numHashSlots slot <;> rfl

omit [Target] in
theorem UMap.scan_det (size slot : K → Res Nat) (probe : Q → Res Nat) (eq : Q → Q → Bool)
    (borrow : K → Q) (q : Q) (es : List (K × V)) (s : σ) : ∀ i,
    UMap.scan (UserCode.det size slot probe eq borrow) q i es s
      = .ok (FC.scan eq borrow q i es, s) := by
  induction es with
  | nil => exact fun _ => rfl
  | cons e es ih =>
    intro i
    unfold UMap.scan FC.scan
    show (if eq q (borrow e.1) = true then _ else _ : Call σ _) s = _
    split
    · rfl
    · exact ih (i + 1)

omit [Target] in
theorem UMap.lookup_det (size slot : K → Res Nat) (probe : Q → Res Nat) (eq : Q → Q → Bool)
    (borrow : K → Q) (T : HashTable K V) (q : Q) (s : σ) :
    UMap.lookup (UserCode.det size slot probe eq borrow) (.hashed T) q s
      = (do
          let code ← probe q
          let o ← tableLookup eq borrow T code q
          return (o, s)) := by
  unfold UMap.lookup tableLookup
  show ((Call.lift (probe q) : Call σ _) >>= _) s = _
  rw [Call.lift_bind]
  cases probe q with
  | panic => rfl
  | ub => rfl
  | ok code =>
    simp only [Res.ok_bind]
    rw [Call.lift_bind]
    cases T.getHashInfo code with
    | panic => rfl
    | ub => rfl
    | ok r =>
      simp only [Res.ok_bind]
      rw [Call.lift_bind]
      cases sliceUnchecked T.entries r.1 r.2 with
      | panic => rfl
      | ub => rfl
      | ok es => exact UMap.scan_det size slot probe eq borrow q es s r.1

omit [Target] in
theorem UMap.lookup_det_scanning (size slot : K → Res Nat) (probe : Q → Res Nat) (eq : Q → Q → Bool)
    (borrow : K → Q) (es : List (K × V)) (q : Q) (s : σ) :
    UMap.lookup (UserCode.det size slot probe eq borrow) (.scanning es) q s
      = .ok (FC.scan eq borrow q 0 es, s) := UMap.scan_det size slot probe eq borrow q es s 0

/-! ### Type by type -/

/-- `CommonMap` construction. -/
theorem UMap.fromVec_common (env : Env) (S : IdxTy) (bh : Hasher) (P : Probe K Q)
    (encK : K → List HCall) (payload : List (K × V)) (s : σ) :
    UMap.fromVec env S (commonCode (fun k => pure (bh (encK k))) (fun q => pure (bh (P.enc q)))
        (fun q k => pure (P.eq q (P.borrow k))) (fun a b => pure (P.eq a b))) payload s
      = (CommonMap.fromVecWithHasher env S encK payload bh).map (fun m => (.hashed m.table, s)) := by
  refine (UMap.fromVec_det env S (fun k => .ok (bh (encK k))) (fun k => .ok (bh (encK k)))
    (fun q => .ok (bh (P.enc q))) P.eq P.borrow payload s).trans ?_
  rw [Res.mapList_ok (g := fun e : K × V => bh (encK e.1)) (fun _ _ => rfl)]
  unfold CommonMap.fromVecWithHasher
  simp only [Res.ok_bind]
  cases analyzeHashCodes (payload.map fun e => bh (encK e.1)) with
  | panic => rfl
  | ub => rfl
  | ok a =>
    simp only [Res.ok_bind]
    cases HashTable.new env S payload a.numHashSlots (fun k => .ok (bh (encK k))) <;> rfl

omit [Target] in
/-- `CommonMap` lookup. -/
theorem UMap.lookup_common (m : CommonMap K V) (P : Probe K Q) (encK : K → List HCall) (q : Q)
    (s : σ) :
    UMap.lookup (commonCode (fun k => pure (m.bh (encK k))) (fun q => pure (m.bh (P.enc q)))
        (fun q k => pure (P.eq q (P.borrow k))) (fun a b => pure (P.eq a b))) (.hashed m.table) q s
      = (m.getKeyValue P q).map (fun o => (o, s)) := by
  refine (UMap.lookup_det (fun k => .ok (m.bh (encK k))) (fun k => .ok (m.bh (encK k)))
    (fun q => .ok (m.bh (P.enc q))) P.eq P.borrow m.table q s).trans ?_
  rw [CommonMap.getKV_lookup]
  simp only [Res.ok_bind]
  cases tableLookup P.eq P.borrow m.table (m.bh (P.enc q)) q <;> rfl

/-- `LengthMap` construction. -/
theorem UMap.fromVec_length (env : Env) (S : IdxTy) (lenK : K → Nat) (lenQ : Q → Nat)
    (eq : Q → Q → Bool) (borrow : K → Q) (payload : List (K × V)) (s : σ) :
    UMap.fromVec env S (lengthCode (fun k => pure (lenK k)) (fun q => pure (lenQ q))
        (fun q k => pure (eq q (borrow k))) (fun a b => pure (eq a b))) payload s
      = (LengthMap.fromVec env S lenK payload).map (fun m => (.hashed m.table, s)) := by
  refine (UMap.fromVec_det env S (fun k => .ok (lenK k)) (fun k => .ok (lenK k))
    (fun q => .ok (lenQ q)) eq borrow payload s).trans ?_
  rw [Res.mapList_ok (g := fun e : K × V => lenK e.1) (fun _ _ => rfl)]
  unfold LengthMap.fromVec
  simp only [Res.ok_bind]
  cases analyzeHashCodes (payload.map fun e => lenK e.1) with
  | panic => rfl
  | ub => rfl
  | ok a =>
    simp only [Res.ok_bind]
    cases HashTable.new env S payload a.numHashSlots (fun k => .ok (lenK k)) <;> rfl

omit [Target] in
/-- `LengthMap` lookup. -/
theorem UMap.lookup_length (m : LengthMap K V) (lenK : K → Nat) (lenQ : Q → Nat)
    (eq : Q → Q → Bool) (borrow : K → Q) (q : Q) (s : σ) :
    UMap.lookup (lengthCode (fun k => pure (lenK k)) (fun q => pure (lenQ q))
        (fun q k => pure (eq q (borrow k))) (fun a b => pure (eq a b))) (.hashed m.table) q s
      = (m.getKeyValue borrow eq lenQ q).map (fun o => (o, s)) := by
  refine (UMap.lookup_det (fun k => .ok (lenK k)) (fun k => .ok (lenK k))
    (fun q => .ok (lenQ q)) eq borrow m.table q s).trans ?_
  rw [LengthMap.getKV_lookup]
  simp only [Res.ok_bind]
  cases tableLookup eq borrow m.table (lenQ q) q <;> rfl

omit [Target] in
theorem lookup_tail (T : HashTable Bytes V) (q : Bytes) (s : σ) (c : Res Nat) :
    (do
      let code ← c
      let o ← tableLookup beq id T code q
      return (o, s))
    = (do
        let code ← c
        let r ← T.getHashInfo code
        let es ← sliceUnchecked T.entries r.1 r.2
        return FC.scan beq id q r.1 es).map (fun o => (o, s)) := by
  unfold tableLookup
  cases c with
  | panic => rfl
  | ub => rfl
  | ok code =>
    simp only [Res.ok_bind]
    cases T.getHashInfo code with
    | panic => rfl
    | ub => rfl
    | ok r =>
      simp only [Res.ok_bind]
      cases sliceUnchecked T.entries r.1 r.2 <;> rfl

omit [Target] in
/-- Code over strings with the crate's own `SliceHash` of `String`. -/
theorem leftCode_det (bh : Hasher) (a b : Nat) :
    (leftCode a b (fun k : Bytes => (pure k.length : Call σ Nat))
        (fun k i j => Call.lift (sliceHash bh k i j)) (fun q : Bytes => pure q.length)
        (fun q i j => Call.lift (sliceHash bh q i j)) (fun q k => pure (beq q k))
        (fun x y => pure (beq x y)))
      = UserCode.det (LeftSliceMap.analysisCode bh a b) (fun k => sliceHash bh k a b)
          (LeftSliceMap.analysisCode bh a b) beq id := by
  unfold leftCode UserCode.det LeftSliceMap.analysisCode
  congr 1
  · funext k s
    show (if k.length ≥ b then _ else _ : Call σ Nat) s = _
    split <;> rfl
  · funext q s
    show (if q.length ≥ b then _ else _ : Call σ Nat) s = _
    split <;> rfl

/-- `LeftSliceMap` with string keys. -/
theorem UMap.fromVec_left (env : Env) (S : IdxTy) (bh : Hasher) (a b : Nat)
    (payload : List (Bytes × V)) (s : σ) :
    UMap.fromVec env S (leftCode a b (fun k : Bytes => pure k.length)
        (fun k i j => Call.lift (sliceHash bh k i j)) (fun q : Bytes => pure q.length)
        (fun q i j => Call.lift (sliceHash bh q i j)) (fun q k => pure (beq q k))
        (fun x y => pure (beq x y))) payload s
      = (LeftSliceMap.fromVecWithHasher env S payload a b bh).map
          (fun m => (.hashed m.table, s)) := by
  rw [leftCode_det]
  refine (UMap.fromVec_det env S _ _ _ beq id payload s).trans ?_
  unfold LeftSliceMap.fromVecWithHasher
  cases Res.mapList (fun e : Bytes × V => LeftSliceMap.analysisCode bh a b e.1) payload with
  | panic => rfl
  | ub => rfl
  | ok codes =>
    simp only [Res.ok_bind]
    cases analyzeHashCodes codes with
    | panic => rfl
    | ub => rfl
    | ok r =>
      simp only [Res.ok_bind]
      cases HashTable.new env S payload r.numHashSlots (fun k => sliceHash bh k a b) <;> rfl

omit [Target] in
/-- `LeftSliceMap` lookup with string keys. -/
theorem UMap.lookup_left (m : LeftSliceMap V) (q : Bytes) (s : σ) :
    UMap.lookup (leftCode m.start m.stop (fun k : Bytes => pure k.length)
        (fun k i j => Call.lift (sliceHash m.bh k i j)) (fun q : Bytes => pure q.length)
        (fun q i j => Call.lift (sliceHash m.bh q i j)) (fun q k => pure (beq q k))
        (fun x y => pure (beq x y))) (.hashed m.table) q s
      = (m.getKeyValue q).map (fun o => (o, s)) := by
  rw [leftCode_det]
  refine (UMap.lookup_det _ _ _ beq id m.table q s).trans ?_
  refine (lookup_tail _ _ _ _).trans ?_
  unfold LeftSliceMap.getKeyValue LeftSliceMap.getHashInfo LeftSliceMap.analysisCode
  by_cases h : q.length ≥ m.stop
  · simp only [if_pos h]
    cases sliceHash m.bh q m.start m.stop <;> rfl
  · simp only [if_neg h]
    rfl

/-- Code over strings with the crate's own `SliceHash` of `String`. -/
theorem rightCode_det (oc : Bool) (bh : Hasher) (a b : Nat) :
    (rightCode oc a b (fun k : Bytes => (pure k.length : Call σ Nat))
        (fun k i j => Call.lift (sliceHash bh k i j)) (fun q : Bytes => pure q.length)
        (fun q i j => Call.lift (sliceHash bh q i j)) (fun q k => pure (beq q k))
        (fun x y => pure (beq x y)))
      = UserCode.det (RightSliceMap.analysisCode oc bh a b)
          (fun k => RightSliceMap.rightHash oc bh k a b)
          (fun q => if q.length ≥ a then RightSliceMap.rightHash oc bh q a b else .ok 0)
          beq id := by
  have hcall : ∀ k : Bytes, rightCall oc a b (fun k : Bytes => (pure k.length : Call σ Nat))
        (fun k i j => Call.lift (sliceHash bh k i j)) k
      = Call.lift (RightSliceMap.rightHash oc bh k a b) := by
    intro k
    funext s
    unfold rightCall RightSliceMap.rightHash
    rw [Call.pure_bind', Call.lift_bind]
    cases usub oc k.length a with
    | panic => rfl
    | ub => rfl
    | ok lo =>
      simp only [Res.ok_bind]
      rw [Call.pure_bind', Call.lift_bind]
      cases usub oc k.length b <;> rfl
  unfold rightCode UserCode.det RightSliceMap.analysisCode
  congr 1
  · funext k s
    show (if k.length ≥ b then _ else _ : Call σ Nat) s = _
    split
    · rw [hcall]
    · rfl
  · funext k s
    show rightCall _ _ _ _ _ _ _ = _
    rw [hcall]
  · funext q s
    show (if q.length ≥ a then _ else _ : Call σ Nat) s
      = Call.lift (if q.length ≥ a then _ else _) s
    split
    · rw [hcall]
    · rfl

/-- `RightSliceMap` with string keys. -/
theorem UMap.fromVec_right (env : Env) (S : IdxTy) (bh : Hasher) (a b : Nat)
    (payload : List (Bytes × V)) (s : σ) :
    UMap.fromVec env S (rightCode env.oc a b (fun k : Bytes => pure k.length)
        (fun k i j => Call.lift (sliceHash bh k i j)) (fun q : Bytes => pure q.length)
        (fun q i j => Call.lift (sliceHash bh q i j)) (fun q k => pure (beq q k))
        (fun x y => pure (beq x y))) payload s
      = (RightSliceMap.fromVecWithHasher env S payload a b bh).map
          (fun m => (.hashed m.table, s)) := by
  rw [rightCode_det]
  refine (UMap.fromVec_det env S _ _ _ beq id payload s).trans ?_
  unfold RightSliceMap.fromVecWithHasher
  cases Res.mapList (fun e : Bytes × V => RightSliceMap.analysisCode env.oc bh a b e.1) payload with
  | panic => rfl
  | ub => rfl
  | ok codes =>
    simp only [Res.ok_bind]
    cases analyzeHashCodes codes with
    | panic => rfl
    | ub => rfl
    | ok r =>
      simp only [Res.ok_bind]
      cases HashTable.new env S payload r.numHashSlots
        (fun k => RightSliceMap.rightHash env.oc bh k a b) <;> rfl

/-- `RightSliceMap` lookup with string keys. -/
theorem UMap.lookup_right (oc : Bool) (m : RightSliceMap V) (q : Bytes) (s : σ) :
    UMap.lookup (rightCode oc m.start m.stop (fun k : Bytes => pure k.length)
        (fun k i j => Call.lift (sliceHash m.bh k i j)) (fun q : Bytes => pure q.length)
        (fun q i j => Call.lift (sliceHash m.bh q i j)) (fun q k => pure (beq q k))
        (fun x y => pure (beq x y))) (.hashed m.table) q s
      = (m.getKeyValue oc q).map (fun o => (o, s)) := by
  rw [rightCode_det]
  refine (UMap.lookup_det _ _ _ beq id m.table q s).trans ?_
  refine (lookup_tail _ _ _ _).trans ?_
  unfold RightSliceMap.getKeyValue RightSliceMap.getHashInfo
  by_cases h : q.length ≥ m.start
  · simp only [if_pos h]
    cases RightSliceMap.rightHash oc m.bh q m.start m.stop <;> rfl
  · simp only [if_neg h]
    rfl

omit [Target] in
/-- `get_many_mut` with string, integer or other lawful code. -/
theorem UMap.getManyMut_det (size slot : K → Res Nat) (probe : Q → Res Nat) (eq : Q → Q → Bool)
    (borrow : K → Q) (m : UMap K V) (get : Q → Res (Option (Ref V)))
    (hget : ∀ (q : Q) (s : σ), (UMap.lookup (UserCode.det size slot probe eq borrow) m q s).map
      (fun r => r.1.map (·.2)) = get q)
    (hst : ∀ (q : Q) (s : σ) (r : Option (K × Ref V) × σ),
      UMap.lookup (UserCode.det size slot probe eq borrow) m q s = .ok r → r.2 = s)
    (qs : List Q) (s : σ) :
    UMap.getManyMut (UserCode.det size slot probe eq borrow) m qs s
      = (FC.getManyMut eq get qs).map (fun o => (o, s)) := by
  have hany : ∀ (k : Q) (l : List Q), Call.anyList
      (fun x => (pure (eq x k) : Call σ Bool)) l s = .ok (l.any (fun x => eq x k), s) := by
    intro k l
    induction l with
    | nil => rfl
    | cons a l ih =>
      unfold Call.anyList
      show (if eq a k = true then _ else _ : Call σ Bool) s = _
      cases h : eq a k with
      | true => simp [h]; rfl
      | false => simp [h]; exact ih
  have hdup : ∀ (ks seen : List Q), UMap.hasDup (UserCode.det size slot probe eq borrow
      : UserCode σ K Q) seen ks s = .ok (FC.hasDup eq seen ks, s) := by
    intro ks
    induction ks with
    | nil => exact fun _ => rfl
    | cons k ks ih =>
      intro seen
      unfold UMap.hasDup FC.hasDup
      rw [Call.bind_apply]
      show (Call.anyList (fun x => (pure (eq x k) : Call σ Bool)) seen s >>= _) = _
      rw [hany]
      simp only [Res.ok_bind]
      cases seen.any (fun x => eq x k) with
      | true => rfl
      | false => simpa using ih _
  have hall : ∀ ks : List Q, UMap.getAll (UserCode.det size slot probe eq borrow) m ks s
      = (FC.getAll get ks).map (fun o => (o, s)) := by
    intro ks
    induction ks with
    | nil => rfl
    | cons k ks ih =>
      unfold UMap.getAll FC.getAll
      rw [Call.bind_apply, ← hget k s]
      have := hst k s
      cases hl : UMap.lookup (UserCode.det size slot probe eq borrow) m k s with
      | panic => rfl
      | ub => rfl
      | ok r =>
        obtain ⟨o, s'⟩ := r
        obtain rfl : s' = s := this _ hl
        simp only [Res.ok_bind, Res.map_ok]
        cases o with
        | none => rfl
        | some r =>
          simp only [Option.map_some]
          rw [Call.bind_apply, ih]
          cases FC.getAll get ks with
          | panic => rfl
          | ub => rfl
          | ok o => cases o <;> rfl
  unfold UMap.getManyMut FC.getManyMut
  rw [Call.bind_apply, hdup]
  simp only [Res.ok_bind]
  cases FC.hasDup eq [] qs with
  | true => rfl
  | false => simpa using hall qs

end FC
