import Verif.Lemmas.Borrows
import Verif.Props.History

/-
C88: references handed out by maps, under Rust's aliasing rules.

The full property (any use that the types allow of any reference a map hands out is defined) is false:
`get_many_mut` turns shared references into mutable ones. The `_partial` theorems say exactly which
histories are defined.
-/

set_option autoImplicit false

namespace FC
variable {M K V Q : Type}

/-- Any map whatever: as long as `get_many_mut` hands out nothing, the aliasing rules change nothing, and
as soon as something it handed out is written through, the behaviour is undefined. -/
theorem C88_any_map_partial (A : MapApi M K V Q) (m : M) (walk : Nat → Walk)
    (prog : List (BorrowOp V Q)) :
    (¬ HandsOutMany A m (opsOf prog) →
      A.borrowRun walk 0 (.start m) prog = A.run m (opsOf prog)) ∧
    (HandsOutMany A m (opsOf prog) → A.borrowRun walk 0 (.start m) prog = .ub) := by
  have hh : (BorrowState.start m).places.Holds (BorrowState.start m).held :=
    fun _ hit => absurd hit List.not_mem_nil
  exact ⟨A.borrowRun_ok walk prog 0 (.start m) (fun _ => Cell.good_owned) hh,
    A.borrowRun_ub walk prog 0 (.start m) (fun _ => Cell.good_owned) hh⟩

theorem C88_scanning_map_partial (P : Probe K Q) (heq : LawfulEq P.eq) (payload : List (K × V))
    (hd : DistinctProbes P.eq P.borrow payload) :
    BorrowRefines (scanningApi P) P.eq P.borrow (ScanningMap.fromVec payload) payload :=
  (C49_scanning_map P heq payload hd).borrows

theorem C88_common_map_partial [Target] (env : Env) (S : IdxTy) (P : Probe K Q) (heq : LawfulEq P.eq)
    (enc : K → List HCall) (henc : ∀ k q, P.eq q (P.borrow k) = true → P.enc q = enc k)
    (payload : List (K × V)) (hd : DistinctProbes P.eq P.borrow payload) (bh : Hasher)
    (m : CommonMap K V) (hm : CommonMap.fromVecWithHasher env S enc payload bh = .ok m)
    (h32 : payload.length < 2 ^ 32) :
    BorrowRefines (commonApi P) P.eq P.borrow m payload :=
  (C49_common_map env S P heq enc henc payload hd bh m hm h32).borrows

theorem C88_integer_map_partial [Target] (env : Env) (S : IdxTy) (payload : List (Int × V))
    (hd : (payload.map (·.1)).Nodup) (m : IntegerMap V)
    (hm : IntegerMap.fromVec env S payload = .ok m) (h32 : payload.length < 2 ^ 32) :
    BorrowRefines integerApi (fun a b => decide (a = b)) id m payload :=
  (C49_integer_map env S payload hd m hm h32).borrows

theorem C88_length_map_partial [Target] (env : Env) (S : IdxTy) (borrow : K → Q) (eq : Q → Q → Bool)
    (heq : LawfulEq eq) (lenK : K → Nat) (lenQ : Q → Nat)
    (hlen : ∀ k q, eq q (borrow k) = true → lenQ q = lenK k) (payload : List (K × V))
    (hd : DistinctProbes eq borrow payload) (m : LengthMap K V)
    (hm : LengthMap.fromVec env S lenK payload = .ok m) (h32 : payload.length < 2 ^ 32) :
    BorrowRefines (lengthApi borrow eq lenQ) eq borrow m payload :=
  (C49_length_map env S borrow eq heq lenK lenQ hlen payload hd m hm h32).borrows

theorem C88_left_slice_map_partial [Target] (env : Env) (S : IdxTy) (payload : List (Bytes × V))
    (hd : (payload.map (·.1)).Nodup) (a b : Nat) (hab : payload = [] → a ≤ b) (bh : Hasher) (m : LeftSliceMap V)
    (hm : LeftSliceMap.fromVecWithHasher env S payload a b bh = .ok m)
    (h32 : payload.length < 2 ^ 32) :
    BorrowRefines leftApi (fun a b => decide (a = b)) id m payload :=
  (C49_left_slice_map env S payload hd a b hab bh m hm h32).borrows

theorem C88_right_slice_map_partial [Target] (env : Env) (S : IdxTy) (payload : List (Bytes × V))
    (hd : (payload.map (·.1)).Nodup) (a b : Nat) (hne : payload = [] → b ≤ a) (ha : a < usz)
    (hb : b < usz) (bh : Hasher) (m : RightSliceMap V)
    (hm : RightSliceMap.fromVecWithHasher env S payload a b bh = .ok m)
    (h32 : payload.length < 2 ^ 32) (oc : Bool) :
    BorrowRefines (rightApi oc) (fun a b => decide (a = b)) id m payload :=
  (C49_right_slice_map env S payload hd a b hne ha hb bh m hm h32 oc).borrows

theorem C88_range_map_partial [Target] (oc oc' : Bool) (t : IntTy) (hb : 0 < t.bits)
    (payload : List (Int × V)) (hne : payload ≠ []) (hr : ∀ e ∈ payload, t.InRange e.1)
    (hd : (payload.map (·.1)).Nodup) (m : IntegerRangeMap V)
    (hm : IntegerRangeMap.fromVec oc t payload = .ok m) :
    BorrowRefines (rangeApi oc' t) (fun a b => decide (a = b)) id m payload :=
  (C49_range_map oc oc' t hb payload hne hr hd m hm).borrows

theorem C88_frozen_map_partial [Target] (env env' : Env) (ty : KeyTy K) (hty : LawfulKey ty)
    (payload : List (K × V)) (hcap : payload.length < 2 ^ 32) (hd : DistinctKeys ty.eq payload)
    (bh : Hasher) (m : FrozenMap K V) (hm : FrozenMap.new env ty payload bh = .ok m) :
    BorrowRefines (frozenApi env' ty) ty.eq id m payload :=
  (C50_frozen_map env env' ty hty payload hcap hd bh m hm).borrows

/-! ### Instances -/

/-- Every call walks over the first two entries, three levels deep. -/
def exWalk : Nat → Walk := fun _ => ⟨[(0, 3), (1, 3)], 3⟩

/-- Shared references are kept and read again while more are made; then a mutable one ends them. The
`get_many_mut`s are refused. -/
def exBorrows : List (BorrowOp Nat Int) :=
  [.op (.get 5), .op (.get 70), .again 0, .op .iter, .again 1, .again 0, .op (.getMut 70 9), .again 0,
    .op (.getKeyValue 70), .again 0, .op (.indexMut 5 1), .op (.getManyMut [(5, 0), (5, 1)]),
    .op (.getManyMut []), .op (.index 5)]

/-- It is not a history in which `get_many_mut` hands out anything, and goes well. -/
example : (do let m ← IntegerMap.fromVec checkedEnv IdxTy.u8 exOther
              return (← integerApi.borrowRun exWalk 0 (.start m) exBorrows).1) =
      (do let m ← IntegerMap.fromVec checkedEnv IdxTy.u8 exOther
          return (← integerApi.run m (opsOf exBorrows)).1) ∧
    ∃ r, (do let m ← IntegerMap.fromVec checkedEnv IdxTy.u8 exOther
             return (← integerApi.borrowRun exWalk 0 (.start m) exBorrows).1) = .ok r :=
  ⟨by decide +kernel, Res.of_isOk (by decide +kernel)⟩

/-- A single write through a single reference from `get_many_mut` is undefined behaviour: the full
property is false. The keys are distinct and present, and nothing else happens to the map. -/
theorem C88_counterexample : ∃ m, IntegerMap.fromVec checkedEnv IdxTy.u8 exOther = .ok m ∧
    Dict.HandsOutMany (fun a b => decide (a = b)) id exOther [.getManyMut [((5 : Int), 20)]] ∧
    ∀ walk, integerApi.borrowRun walk 0 (.start m) [.op (.getManyMut [(5, 20)])] = .ub := by
  have h : Dict.HandsOutMany (fun a b => decide (a = b)) id exOther
      [MapOp.getManyMut [((5 : Int), 20)]] :=
    ⟨[], [(5, 20)], [], [], exOther, [2],
      Dict.assign (fun a b => decide (a = b)) id exOther 5 20, rfl, rfl, by decide +kernel,
      by decide⟩
  exact ⟨exInteger, exInteger_ok, h, fun walk =>
    (C88_integer_map_partial checkedEnv IdxTy.u8 exOther exOther_nodup exInteger exInteger_ok
      (by decide) walk [.op (.getManyMut [(5, 20)])]).2 h⟩

/-- Without the write there is nothing wrong: all references of a `get_many_mut` can be read. -/
example : ∃ b, (do
    let x ← Cells.handOutMany (exWalk 0) [0, 1, 2] (fun _ => .owned)
    let b ← x.2.useAll Cell.read ([0, 1, 2].zip x.1)
    return b 1 : Res Cell) = .ok b := Res.of_isOk (by decide +kernel)

example := C88_scanning_map_partial otherTy.probe otherTy_lawful.eq exOther exOther_distinct

example := C88_common_map_partial checkedEnv IdxTy.u8 otherTy.probe otherTy_lawful.eq otherTy.enc
  exOther_enc exOther exOther_distinct demoHasher exCommon exCommon_ok (by decide)

example := C88_integer_map_partial checkedEnv IdxTy.u8 exOther exOther_nodup exInteger exInteger_ok
  (by decide)

example := C88_length_map_partial checkedEnv IdxTy.u8 id _ lawfulEq_decide List.length List.length
  exBytes_len exBytes exBytes_distinct exLengths exLengths_ok (by decide)

example := C88_left_slice_map_partial checkedEnv IdxTy.u8 exBytes exBytes_nodup 1 2 (by decide)
  demoHasher exLeftSlice exLeftSlice_ok (by decide)

example := C88_right_slice_map_partial checkedEnv IdxTy.u8 exBytes exBytes_nodup 2 1 (by decide)
  (by decide) (by decide) demoHasher _
  (Res.built (r := RightSliceMap.fromVecWithHasher checkedEnv IdxTy.u8 exBytes 2 1 demoHasher)
    (by decide +kernel)) (by decide) true

example := C88_range_map_partial true false IntTy.i8 (by decide) exInts (by decide) exInts_inRange
  exInts_nodup exIntRange exIntRange_ok

example : ∃ m, FrozenMap.new checkedEnv u32Ty exRange demoHasher = .ok m ∧
    BorrowRefines (frozenApi releaseEnv u32Ty) u32Ty.eq id m exRange := by
  obtain ⟨m, hm⟩ := Res.of_isOk (r := FrozenMap.new checkedEnv u32Ty exRange demoHasher)
    (by decide +kernel)
  exact ⟨m, hm, C88_frozen_map_partial checkedEnv releaseEnv u32Ty u32Ty_lawful exRange (by decide)
    exRange_distinct demoHasher m hm⟩

end FC
