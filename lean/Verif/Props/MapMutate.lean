import Verif.Spec.Operations
import Verif.Lemmas.TableLimit
import Verif.Props.MapLookup
import Verif.Props.MapIter
import Verif.Model.Api

/-
C06, C07: mutation of values. C08, C09: get_many_mut. C10: arbitrary Hash and Eq.
-/

set_option autoImplicit false

namespace FC
variable {K V Q : Type}

/-! ### C06 -/

theorem Safe.get_write [Target] {ty : KeyTy K} (hty : LawfulKey ty) {m : FrozenMap K V} (hm : Safe ty m)
    (env : Env) {k : K} {i : Nat} (h : loc ty m k = some i) (v : V) (k' : K) :
    (m.write i v).get env ty k' = if ty.eq k k' then .ok (some ⟨i, v⟩) else m.get env ty k' := by
  rw [(hm.write i v).get_loc hty, hm.get_loc hty, loc_write, FrozenMap.write_entries]
  have hi := hm.loc_lt hty h
  split
  · rename_i heq
    rw [← hm.loc_congr hty heq, h]
    simp [setVal_getElem?, List.getElem?_eq_getElem hi]
  · rename_i hne
    congr 1
    cases hl : loc ty m k' with
    | none => rfl
    | some j =>
      have hij : i ≠ j := by
        rintro rfl
        exact hne (hm.loc_inj hty h hl)
      simp only [Option.bind_some, setVal_getElem?, hij, if_false]
      rw [Option.map_id']

theorem Safe.loc_of_get [Target] {ty : KeyTy K} (hty : LawfulKey ty) {m : FrozenMap K V} (hm : Safe ty m)
    {env : Env} {k : K} {r : Ref V} (h : m.get env ty k = .ok (some r)) :
    loc ty m k = some r.idx := by
  rw [hm.get_loc hty] at h
  cases hl : loc ty m k with
  | none => rw [hl] at h; simp at h
  | some i =>
    rw [hl] at h
    have h := Res.ok.inj h
    simp only [Option.bind_some, Option.map_eq_some_iff] at h
    obtain ⟨e, _, rfl⟩ := h
    rfl

/-- `get_mut` finds what `get` finds; a write through it changes the value of keys equal to `k` and
nothing else. This holds for every reachable map, also one built from repeated keys. -/
theorem C06_get_mut [Target] (env : Env) (ty : KeyTy K) (hty : LawfulKey ty)
    (payload : List (K × V)) (hcap : payload.length < 2 ^ 32) (bh : Hasher) (m : FrozenMap K V)
    (hm : Reachable env ty payload bh m) (k : K) :
    m.getMut env ty k = m.get env ty k ∧
    ∀ (r : Ref V) (v : V), m.getMut env ty k = .ok (some r) →
      (∀ k', ty.eq k k' = true → ∃ r', (m.write r.idx v).get env ty k' = .ok (some r') ∧ r'.val = v) ∧
      (∀ k', ty.eq k k' = false → (m.write r.idx v).get env ty k' = m.get env ty k') ∧
      (∀ k', (m.write r.idx v).containsKey env ty k' = m.containsKey env ty k') ∧
      (m.write r.idx v).len = m.len ∧
      ∀ n, (calls MapKeys.next n ((m.write r.idx v).keys ty)).1 = (calls MapKeys.next n (m.keys ty)).1 := by
  have hs := hm.safe hty hcap
  refine ⟨FrozenMap.getMut_eq env ty m k, ?_⟩
  intro r v h
  rw [FrozenMap.getMut_eq] at h
  have hl := hs.loc_of_get hty h
  have hg := hs.get_write hty env hl v
  refine ⟨?_, ?_, ?_, ?_, ?_⟩
  · intro k' hk'
    rw [hg, if_pos hk']
    exact ⟨_, rfl, rfl⟩
  · intro k' hk'
    rw [hg, if_neg (by simp [hk'])]
  · intro k'
    unfold FrozenMap.containsKey
    rw [hg]
    split
    · rename_i hk'
      have : loc ty m k' = some r.idx := by rw [← hs.loc_congr hty hk', hl]
      rw [hs.get_loc hty, this]
      have hi := hs.loc_lt hty hl
      simp [List.getElem?_eq_getElem hi]
    · rfl
  · rw [(hs.write _ v).len, hs.len, FrozenMap.write_entries, setVal_length]
  · exact C11_order_stable ty m r.idx v

example := C06_get_mut checkedEnv u32Ty u32Ty_lawful exRange (by decide) demoHasher exMapRange
  (.new exMapRange_ok) 13

/-- A key that can be written exists in every example; here the range map. -/
example : ∃ m r, Reachable checkedEnv u32Ty exRange demoHasher m ∧
    m.getMut checkedEnv u32Ty 12 = .ok (some r) := by
  obtain ⟨m, h⟩ := exRange_ok
  obtain ⟨r, hr, _⟩ := C01_present _ _ u32Ty_lawful _ (by decide) exRange_distinct _ m h 12 12 1
    (by decide +kernel) (by decide +kernel)
  exact ⟨m, r, .new h, by rw [FrozenMap.getMut_eq]; exact hr⟩

/-! ### C07 -/

theorem Represents.write [Target] {env : Env} {ty : KeyTy K} (hty : LawfulKey ty) {m : FrozenMap K V}
    (hm : Safe ty m) {f : K → Option V} (h : Represents env ty m f) {k : K} {i : Nat}
    (hl : loc ty m k = some i) (v : V) :
    Represents env ty (m.write i v) (update ty.eq f k v) := by
  intro k'
  unfold update
  rw [hm.get_write hty env hl]
  split
  · exact ⟨_, rfl, rfl⟩
  · exact h k'

theorem write_many [Target] {n : Nat} {env : Env} {ty : KeyTy K} (hty : LawfulKey ty) (kvs : List (K × V)) :
    ∀ (rs : List (Ref V)) (m : FrozenMap K V) (f : K → Option V), Safe ty m →
      Represents env ty m f → m.len = n →
      List.Forall₂ (fun (e : K × V) (r : Ref V) => loc ty m e.1 = some r.idx) kvs rs →
      Safe ty ((rs.zip (kvs.map (·.2))).foldl (fun m x => m.write x.1.idx x.2) m) ∧
      ((rs.zip (kvs.map (·.2))).foldl (fun m x => m.write x.1.idx x.2) m).len = n ∧
      Represents env ty ((rs.zip (kvs.map (·.2))).foldl (fun m x => m.write x.1.idx x.2) m)
        (kvs.foldl (fun f e => update ty.eq f e.1 e.2) f) := by
  induction kvs with
  | nil =>
    intro rs m f hm hr hn h
    cases h
    exact ⟨hm, hn, hr⟩
  | cons e kvs ih =>
    intro rs m f hm hr hn h
    cases h with
    | cons h1 h2 =>
      rename_i r rs
      simp only [List.map_cons, List.zip_cons_cons, List.foldl_cons]
      refine ih rs _ _ (hm.write _ _) (hr.write hty hm h1 e.2) ?_ ?_
      · rw [(hm.write _ _).len, FrozenMap.write_entries, setVal_length, ← hm.len, hn]
      · refine h2.imp ?_
        intro a b hab
        rw [loc_write]; exact hab

theorem Safe.getManyMut [Target] {env : Env} {ty : KeyTy K} (hty : LawfulKey ty) {m : FrozenMap K V}
    (hm : Safe ty m) (keys : List K) :
    ∃ o, m.getManyMut env ty keys = .ok o ∧
      (o = none ↔ ¬ (keys.Pairwise (fun a b => ty.eq a b = false) ∧
        ∀ k ∈ keys, (loc ty m k).isSome = true)) ∧
      ∀ rs, o = some rs →
        List.Forall₂ (fun k r => m.get env ty k = .ok (some r) ∧ loc ty m k = some r.idx) keys rs := by
  let f : K → Option (Ref V) := fun k =>
    (loc ty m k).bind fun i => ((m.entries ty)[i]?).map fun e => ⟨i, e.2⟩
  have hf : ∀ k, m.get env ty k = .ok (f k) := fun k => hm.get_loc hty env k
  have hsome : ∀ k, f k = none ↔ ¬ (loc ty m k).isSome = true := by
    intro k
    cases hl : loc ty m k with
    | none => simp [f, hl]
    | some i => simp [f, hl, List.getElem?_eq_getElem (hm.loc_lt hty hl)]
  unfold FrozenMap.getManyMut FC.getManyMut
  cases hd : hasDup ty.eq [] keys with
  | true =>
    refine ⟨none, by simp, ?_, by simp⟩
    simp only [true_iff]
    rintro ⟨hp, _⟩
    have := (hasDup_eq_false (eq := ty.eq) keys []).2 ⟨by simp, hp⟩
    rw [this] at hd
    simp at hd
  | false =>
    have hp := ((hasDup_eq_false (eq := ty.eq) keys []).1 hd).2
    refine ⟨keys.mapM f, by simpa using getAll_eq keys (fun k _ => hf k), ?_, ?_⟩
    · rw [mapM_none_iff]
      constructor
      · rintro ⟨k, hk, h⟩ ⟨_, hall⟩
        exact (hsome k).1 h (hall k hk)
      · intro h
        by_contra hc
        apply h
        refine ⟨hp, fun k hk => ?_⟩
        by_contra hn
        exact hc ⟨k, hk, (hsome k).2 hn⟩
    · intro rs hrs
      have := (mapM_some_iff keys rs).1 hrs
      clear hrs hd hp
      induction keys generalizing rs with
      | nil =>
        cases rs with
        | nil => exact .nil
        | cons => simp at this
      | cons k keys ih =>
        cases rs with
        | nil => simp at this
        | cons r rs =>
          simp only [List.map_cons, List.cons.injEq] at this
          refine .cons ⟨by rw [hf, this.1], ?_⟩ (ih rs this.2)
          exact hm.loc_of_get hty (env := env) (by rw [hf, this.1])

theorem runOp_spec [Target] {env : Env} {ty : KeyTy K} (hty : LawfulKey ty) {m : FrozenMap K V} {n : Nat}
    {f : K → Option V} (hm : Safe ty m) (hn : m.len = n) (hr : Represents env ty m f)
    (op : Op K V) :
    (∃ a m' f', runOp env ty m op = .ok (a, m') ∧ specOp ty.eq n f op = some (a, f') ∧
      Safe ty m' ∧ m'.len = n ∧ Represents env ty m' f') ∨
    (runOp env ty m op = .panic ∧ specOp ty.eq n f op = none) := by
  have hw : ∀ i v, (m.write i v).len = n := by
    intro i v
    rw [(hm.write _ _).len, FrozenMap.write_entries, setVal_length, ← hm.len, hn]
  have hlf : ∀ k, (loc ty m k).isSome = (f k).isSome := by
    intro k
    obtain ⟨o, h1, h2⟩ := hr k
    rw [← h2]
    cases o with
    | some r => rw [hm.loc_of_get hty h1]; rfl
    | none =>
      rw [hm.get_loc hty] at h1
      cases hl : loc ty m k with
      | none => rfl
      | some i =>
        rw [hl] at h1
        simp [List.getElem?_eq_getElem (hm.loc_lt hty hl)] at h1
  cases op with
  | get k =>
    obtain ⟨o, h1, h2⟩ := hr k
    exact Or.inl ⟨.val (f k), m, f, by simp [runOp, h1, h2], rfl, hm, hn, hr⟩
  | containsKey k =>
    obtain ⟨o, h1, h2⟩ := hr k
    refine Or.inl ⟨.bool (f k).isSome, m, f, ?_, rfl, hm, hn, hr⟩
    simp only [runOp, FrozenMap.containsKey, h1, Res.map_ok, ← h2]
    cases o <;> rfl
  | len => exact Or.inl ⟨.num n, m, f, by simp [runOp, hn], rfl, hm, hn, hr⟩
  | set k v =>
    obtain ⟨o, h1, h2⟩ := hr k
    cases o with
    | none =>
      refine Or.inl ⟨.bool false, m, f, ?_, ?_, hm, hn, hr⟩
      · simp [runOp, FrozenMap.getMut_eq, h1]
      · simp [specOp, ← h2, value]
    | some r =>
      refine Or.inl ⟨.bool true, m.write r.idx v, update ty.eq f k v, ?_, ?_, hm.write _ _, hw _ _,
        hr.write hty hm (hm.loc_of_get hty h1) v⟩
      · simp [runOp, FrozenMap.getMut_eq, h1]
      · simp [specOp, ← h2, value]
  | index k =>
    obtain ⟨o, h1, h2⟩ := hr k
    cases o with
    | none =>
      refine Or.inr ⟨?_, ?_⟩
      · simp [runOp, FrozenMap.index, indexOf, h1]
      · simp [specOp, ← h2, value]
    | some r =>
      refine Or.inl ⟨.val (f k), m, f, ?_, ?_, hm, hn, hr⟩
      · simp [runOp, FrozenMap.index, indexOf, h1, ← h2, value]
      · simp [specOp, ← h2, value]
  | indexSet k v =>
    obtain ⟨o, h1, h2⟩ := hr k
    cases o with
    | none =>
      refine Or.inr ⟨?_, ?_⟩
      · simp [runOp, FrozenMap.indexMut, indexOf, FrozenMap.getMut_eq, h1]
      · simp [specOp, ← h2, value]
    | some r =>
      refine Or.inl ⟨.bool true, m.write r.idx v, update ty.eq f k v, ?_, ?_, hm.write _ _, hw _ _,
        hr.write hty hm (hm.loc_of_get hty h1) v⟩
      · simp [runOp, FrozenMap.indexMut, indexOf, FrozenMap.getMut_eq, h1]
      · simp [specOp, ← h2, value]
  | setMany kvs =>
    obtain ⟨o, h1, h2, h3⟩ := hm.getManyMut (env := env) hty (kvs.map (·.1))
    have hcond : ((kvs.map (·.1)).Pairwise (fun a b => ty.eq a b = false) ∧
          ∀ e ∈ kvs, (f e.1).isSome = true) ↔
        ((kvs.map (·.1)).Pairwise (fun a b => ty.eq a b = false) ∧
          ∀ k ∈ kvs.map (·.1), (loc ty m k).isSome = true) := by
      refine and_congr_right' ?_
      simp only [List.mem_map, hlf]
      constructor
      · rintro h k ⟨e, he, rfl⟩; exact h e he
      · intro h e he; exact h e.1 ⟨e, he, rfl⟩
    cases o with
    | none =>
      refine Or.inl ⟨.bool false, m, f, ?_, ?_, hm, hn, hr⟩
      · simp only [runOp, h1, Res.map_ok]
      · simp only [specOp]
        rw [if_neg (fun h => h2.1 rfl (hcond.1 h))]
    | some rs =>
      have hyes : (kvs.map (·.1)).Pairwise (fun a b => ty.eq a b = false) ∧
          ∀ e ∈ kvs, (f e.1).isSome = true := by
        by_contra hc
        have := h2.2 (fun h => hc (hcond.2 h))
        simp at this
      have hall : List.Forall₂ (fun (e : K × V) (r : Ref V) => loc ty m e.1 = some r.idx) kvs rs := by
        have := h3 rs rfl
        rw [List.forall₂_map_left_iff] at this
        exact this.imp fun a b h => h.2
      obtain ⟨a, b, c⟩ := write_many (env := env) hty kvs rs m f hm hr hn hall
      refine Or.inl ⟨.bool true, _, _, ?_, ?_, a, b, c⟩
      · simp only [runOp, h1, Res.map_ok]
      · simp only [specOp]
        rw [if_pos hyes]

theorem runOps_spec [Target] {env : Env} {ty : KeyTy K} (hty : LawfulKey ty) {n : Nat} (ops : List (Op K V)) :
    ∀ {m : FrozenMap K V} {f : K → Option V}, Safe ty m → m.len = n → Represents env ty m f →
    runOps env ty m ops = match specOps ty.eq n f ops with
      | some as => .ok as
      | none => .panic := by
  induction ops with
  | nil => intros; rfl
  | cons op ops ih =>
    intro m f hm hn hr
    unfold runOps specOps
    rcases runOp_spec hty hm hn hr op with ⟨a, m', f', h1, h2, h3, h4, h5⟩ | ⟨h1, h2⟩
    · rw [h1, h2]
      simp only
      rw [ih h3 h4 h5]
      cases specOps ty.eq n f' ops <;> rfl
    · rw [h1, h2]

/-- Any history of reads and writes on a map with distinct keys shows the answers of a plain
function updated by the same writes, and panics exactly when indexing a key the function lacks. -/
theorem C07_histories_behave_like_a_function [Target] (env : Env) (ty : KeyTy K) (hty : LawfulKey ty)
    (payload : List (K × V)) (hcap : payload.length < 2 ^ 32) (hd : DistinctKeys ty.eq payload)
    (bh : Hasher) (m : FrozenMap K V) (hm : FrozenMap.new env ty payload bh = .ok m)
    (ops : List (Op K V)) :
    runOps env ty m ops
      = match specOps ty.eq payload.length (lookup ty.eq payload) ops with
        | some as => .ok as
        | none => .panic := by
  refine runOps_spec hty ops (new_built env hty hcap hm).safe
    (C12_len env ty hty payload bh m (.new hm)).1 ?_
  intro k
  exact C01_get_agrees_with_payload env ty hty payload hcap hd bh m hm k

example := C07_histories_behave_like_a_function checkedEnv stringTy stringTy_lawful exLeft (by decide)
  exLeft_distinct demoHasher exMapLeft exMapLeft_ok
  [.get ⟨[120, 97, 120], by decide⟩, .indexSet ⟨[120, 98, 120], by decide⟩ 8]

/-- A history that writes, reads back, writes several at once and fails an indexing. -/
example : specOps u32Ty.eq 5 (lookup u32Ty.eq exU32)
    [.set 10 9, .get 10, .setMany [(500, 7), (7, 8)], .index 7, .setMany [(3, 1), (3, 2)], .get 3]
    = some [.bool true, .val (some 9), .bool true, .val (some 8), .bool false, .val (some 5)] := by
  rfl
example : specOps u32Ty.eq 5 (lookup u32Ty.eq exU32) [.get 10, .indexSet 11 1] = none := by rfl

/-! ### C08 -/

/-- `get_many_mut` answers `Some` exactly for pairwise unequal keys that `get` finds; the i-th
reference is the one `get_mut` gives for the i-th key; all references designate different places. -/
theorem C08_get_many_mut [Target] (env : Env) (ty : KeyTy K) (hty : LawfulKey ty)
    (payload : List (K × V)) (hcap : payload.length < 2 ^ 32) (bh : Hasher) (m : FrozenMap K V)
    (hm : Reachable env ty payload bh m) (keys : List K) :
    ∃ o, m.getManyMut env ty keys = .ok o ∧
      (o.isSome = true ↔ keys.Pairwise (fun a b => ty.eq a b = false) ∧
        ∀ k ∈ keys, ∃ r, m.get env ty k = .ok (some r)) ∧
      ∀ rs, o = some rs →
        rs.length = keys.length ∧
        (∀ (i : Nat) (k : K) (r : Ref V), keys[i]? = some k → rs[i]? = some r → m.getMut env ty k = .ok (some r)) ∧
        rs.Pairwise (fun a b => a.idx ≠ b.idx) := by
  have hs := hm.safe hty hcap
  obtain ⟨o, h1, h2, h3⟩ := hs.getManyMut (env := env) hty keys
  have hgl : ∀ k, (loc ty m k).isSome = true ↔ ∃ r, m.get env ty k = .ok (some r) := by
    intro k
    constructor
    · intro h
      obtain ⟨i, hi⟩ := Option.isSome_iff_exists.1 h
      rw [hs.get_loc hty, hi]
      exact ⟨⟨i, ((m.entries ty)[i]'(hs.loc_lt hty hi)).2⟩,
        by simp [List.getElem?_eq_getElem (hs.loc_lt hty hi)]⟩
    · rintro ⟨r, hr⟩
      rw [hs.loc_of_get hty hr]; rfl
  refine ⟨o, h1, ?_, ?_⟩
  · simp only [← hgl]
    cases o with
    | none => simpa using h2.1 rfl
    | some rs =>
      simp only [Option.isSome_some, true_iff]
      by_contra hc
      have := h2.2 hc
      simp at this
  · rintro rs rfl
    have hf := h3 rs rfl
    refine ⟨hf.length_eq.symm, ?_, ?_⟩
    · intro i k r hk hr
      rw [FrozenMap.getMut_eq]
      obtain ⟨hik, rfl⟩ := List.getElem?_eq_some_iff.1 hk
      obtain ⟨hir, rfl⟩ := List.getElem?_eq_some_iff.1 hr
      exact (hf.get hik hir).1
    · have hp : keys.Pairwise (fun a b => ty.eq a b = false) := by
        by_contra hc
        have := h2.2 (fun h => hc h.1)
        simp at this
      rw [List.pairwise_iff_getElem] at hp ⊢
      intro i j hi hj hij he
      have hik : i < keys.length := hf.length_eq ▸ hi
      have hjk : j < keys.length := hf.length_eq ▸ hj
      have a := (hf.get hik hi).2
      have b := (hf.get hjk hj).2
      simp only [List.get_eq_getElem] at a b
      rw [← he] at b
      have := hs.loc_inj hty a b
      rw [hp i j hik hjk hij] at this
      simp at this

example := C08_get_many_mut checkedEnv u32Ty u32Ty_lawful exU32 (by decide) demoHasher exMapU32
  (.new exMapU32_ok) [10, 7, 10]

/-- With distinct payload keys, "found" is "is a payload key". -/
theorem C08_some_iff_payload [Target] (env : Env) (ty : KeyTy K) (hty : LawfulKey ty)
    (payload : List (K × V)) (hcap : payload.length < 2 ^ 32) (hd : DistinctKeys ty.eq payload)
    (bh : Hasher) (m : FrozenMap K V) (hm : FrozenMap.new env ty payload bh = .ok m)
    (keys : List K) :
    (∃ rs, m.getManyMut env ty keys = .ok (some rs)) ↔
      keys.Pairwise (fun a b => ty.eq a b = false) ∧ ∀ k ∈ keys, Present ty.eq payload k := by
  obtain ⟨o, h1, h2, _⟩ := C08_get_many_mut env ty hty payload hcap bh m (.new hm) keys
  have hpres : ∀ k, Present ty.eq payload k ↔ ∃ r, m.get env ty k = .ok (some r) := by
    intro k
    obtain ⟨o, a, b, _⟩ := C04_presence_exact_partial env ty hty payload hcap bh m hm (Or.inr hd) k
    rw [← b, a]
    cases o <;> simp
  simp only [hpres, ← h2]
  rw [h1]
  cases o <;> simp

example : ∃ m, FrozenMap.new checkedEnv u32Ty exU32 demoHasher = .ok m ∧
    ∃ rs, m.getManyMut checkedEnv u32Ty [9000, 10, 3] = .ok (some rs) := by
  obtain ⟨m, h⟩ := exU32_ok
  refine ⟨m, h, (C08_some_iff_payload _ _ u32Ty_lawful _ (by decide) exU32_distinct _ m h _).2 ?_⟩
  refine ⟨by decide +kernel, ?_⟩
  unfold Present
  decide +kernel

/-! ### C10 and C09 -/

/-- A slot scan on a table whose slots designate entries, whatever the hash code and the equality: no panic, no
out-of-bounds access, and a result is a stored entry that the equality accepted. -/
theorem tableLookup_sound {T : HashTable K V} (hT : SlotsOK T)
    (eq : Q → Q → Bool) (borrow : K → Q) (code : Nat) (q : Q) :
    ∃ o, tableLookup eq borrow T code q = .ok o ∧
      ∀ s r, o = some (s, r) → T.entries[r.idx]? = some (s, r.val) ∧ eq q (borrow s) = true := by
  obtain ⟨s, _, h1, h2, h3⟩ := tableLookup_safe hT eq borrow code q
  refine ⟨_, h3, ?_⟩
  intro k r hr
  obtain ⟨a, b, c, _⟩ := scan_some hr
  refine ⟨?_, c⟩
  have hlt : r.idx - s.minIndex < s.maxIndex - s.minIndex := by
    have := (List.getElem?_eq_some_iff.1 b).1
    simp at this
    omega
  rw [List.getElem?_take_of_lt hlt, List.getElem?_drop] at b
  rw [← b]
  congr 1
  omega

/-- The lookup functions of a `CommonMap` built with one `Hash` and hasher and probed with any other
`Hash`, hasher and `Eq`. -/
theorem CommonMap.safe_lookups [Target] (env : Env) (S : IdxTy) (enc : K → List HCall) (payload : List (K × V))
    (bh : Hasher) (m : CommonMap K V)
    (hm : CommonMap.fromVecWithHasher env S enc payload bh = .ok m) (bh' : Hasher)
    (P : Probe K Q) (q : Q) :
    ∃ o, ({ m with bh := bh' }).getKeyValue P q = .ok o ∧
      ({ m with bh := bh' }).get P q = .ok (o.map (·.2)) ∧
      ({ m with bh := bh' }).getMut P q = .ok (o.map (·.2)) ∧
      ({ m with bh := bh' }).containsKey P q = .ok o.isSome ∧
      ∀ s r, o = some (s, r) → m.table.entries[r.idx]? = some (s, r.val) ∧
        P.eq q (P.borrow s) = true := by
  have hT : SlotsOK m.table := by
    unfold CommonMap.fromVecWithHasher at hm
    simp only [Res.bind_eq_ok, Res.pure_eq, Res.ok.injEq] at hm
    obtain ⟨_, _, t, ht, rfl⟩ := hm
    exact (HashTable.new_outcome ht).2.1
  obtain ⟨o, h1, h2⟩ := tableLookup_sound hT P.eq P.borrow (bh' (P.enc q)) q
  have h1' : CommonMap.getKeyValue P { m with bh := bh' } q = .ok o := by
    rw [CommonMap.getKV_lookup]; exact h1
  have hg : CommonMap.get P { m with bh := bh' } q = .ok (o.map (·.2)) := by
    rw [CommonMap.get_eq_kv, h1']; rfl
  refine ⟨o, h1', hg, ?_, ?_, h2⟩
  · rw [CommonMap.getMut_eq]; exact hg
  · unfold CommonMap.containsKey; rw [hg]; simp

/-- The lookup functions of a `CommonMap` built with one `Hash` and hasher and probed with any other
`Hash`, hasher and `Eq`: they return, and what they find is an entry that iteration shows, at that place,
and that the equality accepted. -/
theorem C10_common_map_safe [Target] (env : Env) (S : IdxTy) (enc : K → List HCall) (payload : List (K × V))
    (bh : Hasher) (m : CommonMap K V)
    (hm : CommonMap.fromVecWithHasher env S enc payload bh = .ok m) :
    ∃ es : List (K × V), es.Perm payload ∧ ∀ (bh' : Hasher) (P : Probe K Q),
      (∀ n, (calls MapIter.next n ((commonApi P).iter m)).1 = firstCalls es n) ∧
      ∀ q, ∃ o, ({ m with bh := bh' }).getKeyValue P q = .ok o ∧
        ({ m with bh := bh' }).get P q = .ok (o.map (·.2)) ∧
        ({ m with bh := bh' }).getMut P q = .ok (o.map (·.2)) ∧
        ({ m with bh := bh' }).containsKey P q = .ok o.isSome ∧
        ∀ s r, o = some (s, r) → es[r.idx]? = some (s, r.val) ∧ P.eq q (P.borrow s) = true := by
  refine ⟨m.table.entries, ?_, fun bh' P => ⟨fun n => (C13_iter true _ n).1, fun q =>
    CommonMap.safe_lookups env S enc payload bh m hm bh' P q⟩⟩
  unfold CommonMap.fromVecWithHasher at hm
  simp only [Res.bind_eq_ok, Res.pure_eq, Res.ok.injEq] at hm
  obtain ⟨_, _, t, ht, rfl⟩ := hm
  exact HashTable.new_perm ht

example := C10_common_map_safe (Q := Int) checkedEnv IdxTy.u8 otherTy.enc exOther demoHasher exCommon exCommon_ok
example := ((C10_common_map_safe checkedEnv IdxTy.u8 otherTy.enc exOther demoHasher exCommon
  exCommon_ok).choose_spec.2 (fun _ => 7) (⟨id, fun a b => decide (a < b), fun _ => []⟩ : Probe Int Int)).2 5

/-- The same for a `LengthMap` built with one `Len` implementation and probed with another. -/
theorem LengthMap.safe_lookups [Target] (env : Env) (S : IdxTy) (lenK : K → Nat) (payload : List (K × V))
    (m : LengthMap K V) (hm : LengthMap.fromVec env S lenK payload = .ok m)
    (borrow : K → Q) (eq : Q → Q → Bool) (lenQ : Q → Nat) (q : Q) :
    ∃ o, m.getKeyValue borrow eq lenQ q = .ok o ∧ m.get borrow eq lenQ q = .ok (o.map (·.2)) ∧
      m.getMut borrow eq lenQ q = .ok (o.map (·.2)) ∧
      m.containsKey borrow eq lenQ q = .ok o.isSome ∧
      ∀ s r, o = some (s, r) → m.table.entries[r.idx]? = some (s, r.val) ∧
        eq q (borrow s) = true := by
  have hT : SlotsOK m.table := by
    unfold LengthMap.fromVec at hm
    simp only [Res.bind_eq_ok, Res.pure_eq, Res.ok.injEq] at hm
    obtain ⟨_, _, t, ht, rfl⟩ := hm
    exact (HashTable.new_outcome ht).2.1
  obtain ⟨o, h1, h2⟩ := tableLookup_sound hT eq borrow (lenQ q) q
  have h1' : m.getKeyValue borrow eq lenQ q = .ok o := by
    rw [LengthMap.getKV_lookup]; exact h1
  have hg : m.get borrow eq lenQ q = .ok (o.map (·.2)) := by
    rw [LengthMap.get_eq_kv, h1']; rfl
  refine ⟨o, h1', hg, ?_, ?_, h2⟩
  · rw [LengthMap.getMut_eq]; exact hg
  · unfold LengthMap.containsKey; rw [hg]; simp

/-- The same for a `LengthMap`, whatever lengths the probes report. -/
theorem C10_length_map_safe [Target] (env : Env) (S : IdxTy) (lenK : K → Nat) (payload : List (K × V))
    (m : LengthMap K V) (hm : LengthMap.fromVec env S lenK payload = .ok m) :
    ∃ es : List (K × V), es.Perm payload ∧ ∀ (borrow : K → Q) (eq : Q → Q → Bool) (lenQ : Q → Nat),
      (∀ n, (calls MapIter.next n ((lengthApi borrow eq lenQ).iter m)).1 = firstCalls es n) ∧
      ∀ q, ∃ o, m.getKeyValue borrow eq lenQ q = .ok o ∧
        m.get borrow eq lenQ q = .ok (o.map (·.2)) ∧
        m.getMut borrow eq lenQ q = .ok (o.map (·.2)) ∧
        m.containsKey borrow eq lenQ q = .ok o.isSome ∧
        ∀ s r, o = some (s, r) → es[r.idx]? = some (s, r.val) ∧ eq q (borrow s) = true := by
  refine ⟨m.table.entries, ?_, fun borrow eq lenQ => ⟨fun n => (C13_iter true _ n).1, fun q =>
    LengthMap.safe_lookups env S lenK payload m hm borrow eq lenQ q⟩⟩
  unfold LengthMap.fromVec at hm
  simp only [Res.bind_eq_ok, Res.pure_eq, Res.ok.injEq] at hm
  obtain ⟨_, _, t, ht, rfl⟩ := hm
  exact HashTable.new_perm ht

example := C10_length_map_safe (Q := Bytes) checkedEnv IdxTy.u8 List.length exBytes exLengths exLengths_ok
example := ((C10_length_map_safe checkedEnv IdxTy.u8 List.length exBytes exLengths exLengths_ok).choose_spec.2
  id (fun _ _ => true) (fun q => q.length + 1)).2 [120]

/-- The facade with a user-defined key type: built with any `Hash`/`Eq`, probed with any other. A
result is a stored entry that the `Eq` used for the probe accepted. -/
theorem FrozenMap.safe_lookups [Target] (env : Env) (ty : KeyTy K) (hk : ty.kind = .other)
    (payload : List (K × V)) (bh : Hasher) (m : FrozenMap K V)
    (hm : FrozenMap.new env ty payload bh = .ok m) (env' : Env) (ty' : KeyTy K) (k : K) :
    ∃ o, m.getKeyValue env' ty' k = .ok o ∧ m.get env' ty' k = .ok (o.map (·.2)) ∧
      m.getMut env' ty' k = .ok (o.map (·.2)) ∧ m.containsKey env' ty' k = .ok o.isSome ∧
      ∀ s r, o = some (s, r) → (m.entries ty)[r.idx]? = some (s, r.val) ∧ ty'.eq k s = true := by
  unfold FrozenMap.new at hm
  split at hm
  · cases hm
    refine ⟨scan ty'.eq id k 0 payload, rfl, rfl, rfl, ?_, ?_⟩
    · simp only [FrozenMap.containsKey, FrozenMap.get, ScanningMap.get, ScanningMap.fromVec,
        KeyTy.probe, Res.map_ok]
      simp
    · intro s r hr
      obtain ⟨_, b, c, _⟩ := scan_some hr
      exact ⟨by simpa [FrozenMap.entries, ScanningMap.fromVec] using b, c⟩
  · rw [hk] at hm
    simp only [FrozenMap.newCommonMap] at hm
    split at hm
    · rw [Res.bind_eq_ok] at hm
      obtain ⟨c, hc, hm⟩ := hm
      cases hm
      exact CommonMap.safe_lookups env IdxTy.u8 ty.enc payload bh c hc c.bh ty'.probe k
    · rw [Res.bind_eq_ok] at hm
      obtain ⟨c, hc, hm⟩ := hm
      cases hm
      exact CommonMap.safe_lookups env IdxTy.usize ty.enc payload bh c hc c.bh ty'.probe k

theorem FrozenMap.new_perm_other [Target] {env : Env} {ty : KeyTy K} (hk : ty.kind = .other)
    {payload : List (K × V)} {bh : Hasher} {m : FrozenMap K V}
    (hm : FrozenMap.new env ty payload bh = .ok m) : (m.entries ty).Perm payload := by
  unfold FrozenMap.new at hm
  split at hm
  · cases hm
    exact List.Perm.refl _
  · rw [hk] at hm
    simp only [FrozenMap.newCommonMap] at hm
    split at hm <;>
    · rw [Res.bind_eq_ok] at hm
      obtain ⟨c, hc, hm⟩ := hm
      cases hm
      unfold CommonMap.fromVecWithHasher at hc
      simp only [Res.bind_eq_ok, Res.pure_eq, Res.ok.injEq] at hc
      obtain ⟨_, _, t, ht, rfl⟩ := hc
      exact HashTable.new_perm ht

/-- The facade with a user-defined key type: built with any `Hash` and `Eq`, probed with any other,
different ones each time. Lookups return, and what they find is an entry that iteration shows, at that
place, and that the `Eq` used for the probe accepted. -/
theorem C10_frozen_map_safe [Target] (env : Env) (ty : KeyTy K) (hk : ty.kind = .other)
    (payload : List (K × V)) (bh : Hasher) (m : FrozenMap K V)
    (hm : FrozenMap.new env ty payload bh = .ok m) :
    ∃ es : List (K × V), es.Perm payload ∧
      (∀ n, (calls MapIter.next n (m.iter ty)).1 = firstCalls es n) ∧
      ∀ (env' : Env) (ty' : KeyTy K) (k : K),
        ∃ o, m.getKeyValue env' ty' k = .ok o ∧ m.get env' ty' k = .ok (o.map (·.2)) ∧
          m.getMut env' ty' k = .ok (o.map (·.2)) ∧ m.containsKey env' ty' k = .ok o.isSome ∧
          ∀ s r, o = some (s, r) → es[r.idx]? = some (s, r.val) ∧ ty'.eq k s = true :=
  ⟨m.entries ty, FrozenMap.new_perm_other hk hm, fun n => (C13_iter true _ n).1,
    fun env' ty' k => FrozenMap.safe_lookups env ty hk payload bh m hm env' ty' k⟩

/-- An `Eq` that is neither symmetric nor transitive and a `Hash` that ignores it. -/
def brokenTy : KeyTy Int where
  eq a b := decide (a - b ≤ 1 ∧ b - a ≤ 1)
  enc k := [.writeInt 64 (7 * k)]
  kind := .other

example : ∃ m, FrozenMap.new checkedEnv brokenTy exOther demoHasher = .ok m :=
  Res.of_isOk (by decide +kernel)

/-- C09 is false: with an `Eq` that accepts neighbours, `get_many_mut([0, 2])` on a map holding the
key 1 returns two references to the same value. -/
theorem C09_counterexample :
    ∃ m, FrozenMap.new checkedEnv brokenTy [(1, 10)] demoHasher = .ok m ∧
      m.getManyMut checkedEnv brokenTy [0, 2] = .ok (some [⟨0, 10⟩, ⟨0, 10⟩]) := ⟨_, rfl, rfl⟩

/-- Two aliasing references prove `Eq` broken: some stored key was found equal to two probes that
are unequal to each other. The `Hash` may be anything. Missing from C09: absence of aliasing when
`Eq` is not an equivalence, where it is false. -/
theorem C09_alias_needs_broken_eq_partial [Target] (env : Env) (ty : KeyTy K) (hk : ty.kind = .other)
    (payload : List (K × V)) (bh : Hasher) (m : FrozenMap K V)
    (hm : FrozenMap.new env ty payload bh = .ok m) (env' : Env) (ty' : KeyTy K) (keys : List K)
    (rs : List (Ref V)) (hr : m.getManyMut env' ty' keys = .ok (some rs))
    (i j : Nat) (hij : i < j) (ra rb : Ref V) (hi : rs[i]? = some ra) (hj : rs[j]? = some rb)
    (halias : ra.idx = rb.idx) :
    ∃ a b s, keys[i]? = some a ∧ keys[j]? = some b ∧ s ∈ payload.map (·.1) ∧
      ty'.eq a s = true ∧ ty'.eq b s = true ∧ ty'.eq a b = false := by
  have hsafe := FrozenMap.safe_lookups env ty hk payload bh m hm env' ty'
  choose f hf using hsafe
  unfold FrozenMap.getManyMut FC.getManyMut at hr
  cases hd : hasDup ty'.eq [] keys with
  | true => rw [hd] at hr; simp at hr
  | false =>
    rw [hd] at hr
    have hp := ((hasDup_eq_false (eq := ty'.eq) keys []).1 hd).2
    rw [if_neg (by simp), getAll_eq (f := fun k => (f k).map (·.2)) keys
      (fun k _ => (hf k).2.1)] at hr
    have hmap := (mapM_some_iff keys rs).1 (Res.ok.inj hr)
    have hlen : keys.length = rs.length := by simpa using congrArg List.length hmap
    obtain ⟨hil, rfl⟩ := List.getElem?_eq_some_iff.1 hi
    obtain ⟨hjl, rfl⟩ := List.getElem?_eq_some_iff.1 hj
    have hik : i < keys.length := by omega
    have hjk : j < keys.length := by omega
    have get : ∀ n (h : n < rs.length) (h' : n < keys.length),
        ∃ s, f keys[n] = some (s, rs[n]) := by
      intro n h h'
      have : (keys.map (fun k => (f k).map (·.2)))[n]? = (rs.map some)[n]? := by rw [hmap]
      simp only [List.getElem?_map, List.getElem?_eq_getElem h', List.getElem?_eq_getElem h,
        Option.map_some, Option.some.injEq] at this
      cases hfk : f keys[n] with
      | none => rw [hfk] at this; simp at this
      | some x =>
        rw [hfk] at this
        simp at this
        exact ⟨x.1, by rw [← this]⟩
    obtain ⟨sa, ha⟩ := get i hil hik
    obtain ⟨sb, hb⟩ := get j hjl hjk
    obtain ⟨ea, qa⟩ := (hf keys[i]).2.2.2.2 sa _ ha
    obtain ⟨eb, qb⟩ := (hf keys[j]).2.2.2.2 sb _ hb
    rw [halias] at ea
    have hse := ea.symm.trans eb
    simp only [Option.some.injEq, Prod.mk.injEq] at hse
    refine ⟨keys[i], keys[j], sa, List.getElem?_eq_getElem hik, List.getElem?_eq_getElem hjk, ?_, qa,
      ?_, List.pairwise_iff_getElem.1 hp i j hik hjk hij⟩
    · exact List.mem_map.2 ⟨_, (FrozenMap.new_perm_other hk hm).mem_iff.1 (List.mem_of_getElem? ea), rfl⟩
    · rw [hse.1]; exact qb

/-- So with any `Hash`, even a random one, and an `Eq` that is an equivalence, references never
alias. -/
theorem C09_no_alias_any_hash_partial [Target] (env : Env) (ty : KeyTy K) (hk : ty.kind = .other)
    (payload : List (K × V)) (bh : Hasher) (m : FrozenMap K V)
    (hm : FrozenMap.new env ty payload bh = .ok m) (env' : Env) (ty' : KeyTy K)
    (heq : LawfulEq ty'.eq) (keys : List K) (rs : List (Ref V))
    (hr : m.getManyMut env' ty' keys = .ok (some rs)) :
    rs.Pairwise (fun a b => a.idx ≠ b.idx) := by
  rw [List.pairwise_iff_getElem]
  intro i j hi hj hij h
  obtain ⟨a, b, s, _, _, _, ha, hb, hab⟩ := C09_alias_needs_broken_eq_partial env ty hk payload bh m
    hm env' ty' keys rs hr i j hij _ _ (List.getElem?_eq_getElem hi) (List.getElem?_eq_getElem hj) h
  rw [heq.trans _ _ _ ha (heq.symm _ _ hb)] at hab
  simp at hab

example : ∃ m, FrozenMap.new checkedEnv brokenTy [(1, 10)] demoHasher = .ok m ∧
    ∃ rs : List (Ref Nat), m.getManyMut checkedEnv brokenTy [0, 2] = .ok (some rs) :=
  ⟨_, rfl, _, rfl⟩
example : ∃ m, FrozenMap.new checkedEnv otherTy [(1, 10), (2, 20)] demoHasher = .ok m ∧
    ∃ rs : List (Ref Nat), m.getManyMut checkedEnv otherTy [2, 1] = .ok (some rs) :=
  ⟨_, rfl, _, rfl⟩

/-- A map built with a broken `Eq`, probed with another; two references to the same value; and two
references to different ones. -/
example := ((C10_frozen_map_safe checkedEnv brokenTy rfl exOther demoHasher _
  (Res.built (by decide +kernel))).choose_spec.2.2 releaseEnv otherTy) 5
example := C09_alias_needs_broken_eq_partial checkedEnv brokenTy rfl [(1, 10)] demoHasher _ rfl checkedEnv
  brokenTy [0, 2] _ rfl 0 1 (by decide) _ _ rfl rfl rfl
example := C09_no_alias_any_hash_partial checkedEnv otherTy rfl [(1, 10), (2, 20)] demoHasher _ rfl checkedEnv
  otherTy otherTy_lawful.eq [2, 1] _ rfl

end FC
