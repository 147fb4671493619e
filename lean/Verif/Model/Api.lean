import Verif.Model.FrozenMap

/-
The whole public interface of every map type, as one record per type. The `iter`, `keys`, `values`,
`Index`, `IndexMut` and `PartialEq` implementations of the specialized maps are modelled here.
-/

set_option autoImplicit false

namespace FC
variable [Target]

/-- The methods of a map type `M` with keys `K`, probed with `Q`. `write m i v` is the effect of
`*r = v` for a `&mut V` designating entry `i`. Model device: a record of the methods in
specialized_maps/common_map.rs:58-172, 191-195 and 207-239 and their counterparts, cited at each instance
below. -/
structure MapApi (M K V Q : Type) where
  get : M → Q → Res (Option (Ref V))
  getKeyValue : M → Q → Res (Option (K × Ref V))
  getMut : M → Q → Res (Option (Ref V))
  getManyMut : M → List Q → Res (Option (List (Ref V)))
  containsKey : M → Q → Res Bool
  index : M → Q → Res (Ref V)
  indexMut : M → Q → Res (Ref V)
  len : M → Nat
  iter : M → MapIter K V
  keys : M → MapKeys K V
  values : M → MapValues K V
  write : M → Nat → V → M

/-- `PartialEq::eq` of every map type (`self.len() != other.len()`, then `all` over a fresh `iter()`
with `other.get`; line numbers at `mapEq`). E.g. specialized_maps/common_map.rs:249-256,
facades/frozen_map.rs:773-780. -/
def MapApi.partialEq {M K V : Type} (A : MapApi M K V K) (veq : V → V → Bool) (m other : M) :
    Res Bool :=
  mapEq veq (A.len m) (A.len other) (A.iter m).entries (A.get other)

variable {K V Q : Type}

/-- specialized_maps/scanning_map.rs; iterators at 115-127, `Len` 130-134, `Index` 145-168, `into_iter` of a
reference 173-175 (`self.iter()`). -/
def scanningApi (P : Probe K Q) : MapApi (ScanningMap K V) K V Q where
  get m q := m.get P q
  getKeyValue m q := m.getKeyValue P q
  getMut m q := m.getMut P q
  getManyMut m qs := m.getManyMut P qs
  containsKey m q := m.containsKey P q
  index m q := indexOf (m.get P q)
  indexMut m q := indexOf (m.getMut P q)
  len m := m.len
  iter m := MapIter.new m.entries
  keys m := MapKeys.new m.entries
  values m := MapValues.new m.entries
  write m i v := m.write i v

/-- specialized_maps/common_map.rs; iterators at 160-172, `Len` 191-195, `Index` 207-231, `into_iter` 237-239. -/
def commonApi (P : Probe K Q) : MapApi (CommonMap K V) K V Q where
  get m q := m.get P q
  getKeyValue m q := m.getKeyValue P q
  getMut m q := m.getMut P q
  getManyMut m qs := m.getManyMut P qs
  containsKey m q := m.containsKey P q
  index m q := indexOf (m.get P q)
  indexMut m q := indexOf (m.getMut P q)
  len m := m.len
  iter m := MapIter.new m.table.entries
  keys m := MapKeys.new m.table.entries
  values m := MapValues.new m.table.entries
  write m i v := m.write i v

/-- specialized_maps/integer_map.rs; iterators at 143-155, `Len` 158-162, `Index` 174-196, `into_iter` 202-204. -/
def integerApi : MapApi (IntegerMap V) Int V Int where
  get m q := m.get q
  getKeyValue m q := m.getKeyValue q
  getMut m q := m.getMut q
  getManyMut m qs := m.getManyMut qs
  containsKey m q := m.containsKey q
  index m q := indexOf (m.get q)
  indexMut m q := indexOf (m.getMut q)
  len m := m.len
  iter m := MapIter.new m.table.entries
  keys m := MapKeys.new m.table.entries
  values m := MapValues.new m.table.entries
  write m i v := m.write i v

/-- specialized_maps/length_map.rs; iterators at 145-157, `Len` 160-164, `Index` 176-198, `into_iter` 204-206. -/
def lengthApi (borrow : K → Q) (eq : Q → Q → Bool) (lenQ : Q → Nat) :
    MapApi (LengthMap K V) K V Q where
  get m q := m.get borrow eq lenQ q
  getKeyValue m q := m.getKeyValue borrow eq lenQ q
  getMut m q := m.getMut borrow eq lenQ q
  getManyMut m qs := m.getManyMut borrow eq lenQ qs
  containsKey m q := m.containsKey borrow eq lenQ q
  index m q := indexOf (m.get borrow eq lenQ q)
  indexMut m q := indexOf (m.getMut borrow eq lenQ q)
  len m := m.len
  iter m := MapIter.new m.table.entries
  keys m := MapKeys.new m.table.entries
  values m := MapValues.new m.table.entries
  write m i v := m.write i v

/-- specialized_maps/left_slice_map.rs; iterators at 182-194, `Len` 223-227, `Index` 239-263, `into_iter`
269-271. -/
def leftApi : MapApi (LeftSliceMap V) Bytes V Bytes where
  get m q := m.get q
  getKeyValue m q := m.getKeyValue q
  getMut m q := m.getMut q
  getManyMut m qs := m.getManyMut qs
  containsKey m q := m.containsKey q
  index m q := indexOf (m.get q)
  indexMut m q := indexOf (m.getMut q)
  len m := m.len
  iter m := MapIter.new m.table.entries
  keys m := MapKeys.new m.table.entries
  values m := MapValues.new m.table.entries
  write m i v := m.write i v

/-- specialized_maps/right_slice_map.rs; iterators at 185-197, `Len` 226-230, `Index` 242-266, `into_iter`
272-274. -/
def rightApi (oc : Bool) : MapApi (RightSliceMap V) Bytes V Bytes where
  get m q := m.get oc q
  getKeyValue m q := m.getKeyValue oc q
  getMut m q := m.getMut oc q
  getManyMut m qs := m.getManyMut oc qs
  containsKey m q := m.containsKey oc q
  index m q := indexOf (m.get oc q)
  indexMut m q := indexOf (m.getMut oc q)
  len m := m.len
  iter m := MapIter.new m.table.entries
  keys m := MapKeys.new m.table.entries
  values m := MapValues.new m.table.entries
  write m i v := m.write i v

/-- specialized_maps/integer_range_map.rs; iterators at 140-152, `Len` 155-159, `Index` 172-192, `into_iter`
198-200. -/
def rangeApi (oc : Bool) (t : IntTy) : MapApi (IntegerRangeMap V) Int V Int where
  get m q := m.get oc t q
  getKeyValue m q := m.getKeyValue oc t q
  getMut m q := m.getMut oc t q
  getManyMut m qs := m.getManyMut oc t qs
  containsKey m q := m.containsKey oc t q
  index m q := indexOf (m.get oc t q)
  indexMut m q := indexOf (m.getMut oc t q)
  len m := m.len
  iter m := MapIter.new m.entries
  keys m := MapKeys.new m.entries
  values m := MapValues.new m.entries
  write m i v := m.write i v

/-- facades/frozen_map.rs:158-802: each field is the method of that name, whose lines are cited in
Model/FrozenMap.lean. `into_iter` of a reference, 799-801, is `self.iter()`. -/
def frozenApi (env : Env) (ty : KeyTy K) : MapApi (FrozenMap K V) K V K where
  get m k := m.get env ty k
  getKeyValue m k := m.getKeyValue env ty k
  getMut m k := m.getMut env ty k
  getManyMut m ks := m.getManyMut env ty ks
  containsKey m k := m.containsKey env ty k
  index m k := m.index env ty k
  indexMut m k := m.indexMut env ty k
  len m := m.len
  iter m := m.iter ty
  keys m := m.keys ty
  values m := m.values ty
  write m i v := m.write i v

end FC
