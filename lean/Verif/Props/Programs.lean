import Verif.Lemmas.Programs
import Verif.Examples

/-
C98: programs that hold any number of maps and sets act as on plain lists.
-/

set_option autoImplicit false

namespace FC

/-- C98. A program builds maps and sets, works on them, clones them, compares them and combines them,
in any order, each action decided by all the replies so far. Every reply is one that plain lists of
pairs and elements allow. The program panics only where it indexes with an absent key. This holds for
every key type, hasher and build mode, and every number of actions. -/
theorem C98_programs [Target] {K V : Type} (u : Surround K V) (hty : LawfulKey u.ty)
    (hck : ∀ k, u.ty.eq (u.ck k) k = true) (hord : ∀ l, (u.order l).Perm l)
    (prog : List (Reply K V) → Cmd K V) (hprog : ∀ seen, (prog seen).Fine u.ty) (n : Nat) :
    ActsAsPlain u prog n := by
  have h := Shelf.Like.run u hty hck hord prog hprog n (seen := []) (h := ⟨[], []⟩) (w := ⟨[], []⟩)
    ⟨.nil, .nil⟩
  unfold ActsAsPlain
  cases hr : Shelf.run u prog n [] ⟨[], []⟩ with
  | ok x =>
    rw [hr] at h
    obtain ⟨w, hw, _⟩ := h
    exact ⟨w, hw⟩
  | panic => rw [hr] at h; exact h
  | ub => rw [hr] at h; exact h

/-- C98 for keys other than strings: nothing is asked of the payloads but distinct keys and a length
below 2^31. -/
theorem C98_programs_without_strings [Target] {K V : Type} (u : Surround K V) (hty : LawfulKey u.ty)
    (hk : ∀ f g, u.ty.kind ≠ .string f g)
    (hck : ∀ k, u.ty.eq (u.ck k) k = true) (hord : ∀ l, (u.order l).Perm l)
    (prog : List (Reply K V) → Cmd K V)
    (hm : ∀ seen p bh, prog seen = .newMap p bh → DistinctKeys u.ty.eq p ∧ p.length < 2 ^ 31)
    (hs : ∀ seen p bh, prog seen = .newSet p bh → Distinct u.ty.eq p ∧ p.length < 2 ^ 31) (n : Nat) :
    ActsAsPlain u prog n := by
  refine C98_programs u hty hck hord prog (fun seen => ?_) n
  cases hc : prog seen with
  | newMap p bh => exact ⟨(hm _ _ _ hc).1, (hm _ _ _ hc).2, fun f g h => absurd h (hk f g)⟩
  | newSet p bh => exact ⟨(hs _ _ _ hc).1, (hs _ _ _ hc).2, fun f g h => absurd h (hk f g)⟩
  | _ => trivial

/-- C98 for a program that catches its panics: it always goes on, and still sees what plain lists show. -/
theorem C98_with_panics_caught [Target] {K V : Type} (u : Surround K V) (hty : LawfulKey u.ty)
    (hck : ∀ k, u.ty.eq (u.ck k) k = true) (hord : ∀ l, (u.order l).Perm l)
    (prog : List (Option (Reply K V)) → Cmd K V) (hprog : ∀ seen, (prog seen).Fine u.ty) (n : Nat) :
    ∃ seen h w, Shelf.runCaught u prog n [] ⟨[], []⟩ = .ok (seen, h) ∧
      PlainLists.RunsCaught u.ty.eq u.ck u.cv u.veq prog n [] ⟨[], []⟩ seen w :=
  Shelf.Like.runCaught u hty hck hord prog hprog n ⟨.nil, .nil⟩

/-- What the reference says, in one case: after a map is cloned and the clone written to, a lookup in
the first map shows what it held before. -/
theorem PlainLists.clone_apart {K V : Type} (eq : K → K → Bool) (ck : K → K) (cv : V → V)
    (veq : V → V → Bool) (d : List (K × V)) (k : K) (v : V)
    (w w₁ w₂ w₃ : PlainLists K V) (r₁ r₂ : Reply K V) (o : Out K V)
    (i : Nat) (hi : w.maps[i]? = some d)
    (h₁ : w.Does eq ck cv veq (.cloneMap i) r₁ w₁)
    (h₂ : w₁.Does eq ck cv veq (.onMap w.maps.length (.getMut k v)) r₂ w₂)
    (h₃ : w₂.Does eq ck cv veq (.onMap i (.get k)) (.saw o) w₃) :
    o = .value ((Dict.find eq id d k).map (·.2)) := by
  cases h₁ with
  | noMap _ _ hn _ => simp_all
  | noSet => simp_all
  | cloneMap _ d' hd' =>
    rw [hi] at hd'; cases hd'
    have hlt : i < w.maps.length := (List.getElem?_eq_some_iff.1 hi).1
    cases h₂ with
    | noMap => simp_all
    | noSet => simp_all
    | onMap _ _ e e' o₁ o₂ he hstep hag =>
      have hw : ((w.maps ++ [d.map fun e => (ck e.1, cv e.2)]).set w.maps.length e')[i]? = some d := by
        rw [List.getElem?_set_ne (by omega), List.getElem?_append_left hlt]; exact hi
      cases h₃ with
      | onMap _ _ e₂ e₂' o₃ o₄ he₂ hs₂ hag₂ =>
        rw [hw] at he₂
        cases he₂
        simp only [Dict.step, Res.ok.injEq, Prod.mk.injEq] at hs₂
        obtain ⟨rfl, rfl⟩ := hs₂
        cases hag₂
        rfl

/-! ### Non-vacuity -/

/-- Key copies are the keys themselves, values are compared with `==`, a `HashSet` lists backwards. -/
def demoSurround : Surround UInt32 Int :=
  ⟨checkedEnv, u32Ty, id, id, fun a b => decide (a = b), List.reverse⟩

/-- A program: a map is made, cloned, the clone written to if the map holds 5, both compared; two sets
are made, asked about, combined; then it indexes the map with 7, which is absent. -/
def demoProg : List (Reply UInt32 Int) → Cmd UInt32 Int
  | [] => .newMap [(5, 50), (1, 10), (9, 90)] demoHasher
  | [_] => .cloneMap 0
  | [_, _] => .onMap 0 (.get 5)
  | [_, _, .saw (.value (some _))] => .onMap 1 (.getMut 5 (-5))
  | [_, _, _] => .onMap 1 .len
  | [_, _, _, _] => .onMap 0 (.get 5)
  | [_, _, _, _, _] => .onMap 1 (.get 5)
  | [_, _, _, _, _, _] => .sameMaps 0 1
  | [_, _, _, _, _, _, _] => .newSet [3, 4, 5, 6] demoHasher
  | [_, _, _, _, _, _, _, _] => .newSet [100, 5, 31] demoHasher
  | [_, _, _, _, _, _, _, _, _] => .ask .isDisjoint 0 1
  | [_, _, _, _, _, _, _, _, _, _] => .combine .and 0 1
  | _ => .onMap 0 (.index 7)

theorem demoProg_fine (seen : List (Reply UInt32 Int)) : (demoProg seen).Fine u32Ty := by
  have hm : DistinctKeys u32Ty.eq [((5 : UInt32), (50 : Int)), (1, 10), (9, 90)] := by
    unfold DistinctKeys; decide +kernel
  have hs : Distinct u32Ty.eq [(3 : UInt32), 4, 5, 6] := by unfold Distinct; decide +kernel
  have hs' : Distinct u32Ty.eq [(100 : UInt32), 5, 31] := by unfold Distinct; decide +kernel
  unfold demoProg
  split <;> first
    | trivial
    | exact ⟨hm, by decide, by intro f g h; cases h⟩
    | exact ⟨hs, by decide, by intro f g h; cases h⟩
    | exact ⟨hs', by decide, by intro f g h; cases h⟩

/-- The theorem applies to it. -/
example (n : Nat) : ActsAsPlain demoSurround demoProg n :=
  C98_programs demoSurround u32Ty_lawful u32Ty_lawful.eq.refl (fun l => l.reverse_perm) demoProg
    demoProg_fine n

/-- What its first eleven actions show: the clone's write is not seen through the first map. -/
example : (Shelf.run demoSurround demoProg 11 [] ⟨[], []⟩).map (·.1)
    = .ok [.done, .done, .saw (.value (some 50)), .saw (.value (some 50)), .saw (.value (some 50)),
        .saw (.value (some (-5))), .bool false, .done, .done, .bool false, .elements [5]] := by
  decide +kernel

/-- The twelfth panics. -/
example : (Shelf.run demoSurround demoProg 12 [] ⟨[], []⟩).map (·.1) = .panic := by decide +kernel

/-- A program that goes through the elements in one of two sets, and through those in both. -/
def visitProg : List (Reply UInt32 Int) → Cmd UInt32 Int
  | [] => .newSet [3, 4, 5, 6] demoHasher
  | [_] => .newSet [100, 5, 31] demoHasher
  | [_, _] => .visit .xor 0 1
  | _ => .visit .and 1 0

theorem visitProg_fine (seen : List (Reply UInt32 Int)) : (visitProg seen).Fine u32Ty := by
  have hs : Distinct u32Ty.eq [(3 : UInt32), 4, 5, 6] := by unfold Distinct; decide +kernel
  have hs' : Distinct u32Ty.eq [(100 : UInt32), 5, 31] := by unfold Distinct; decide +kernel
  unfold visitProg
  split <;> first
    | trivial
    | exact ⟨hs, by decide, by intro f g h; cases h⟩
    | exact ⟨hs', by decide, by intro f g h; cases h⟩

example (n : Nat) : ActsAsPlain demoSurround visitProg n :=
  C98_programs demoSurround u32Ty_lawful u32Ty_lawful.eq.refl (fun l => l.reverse_perm) visitProg
    visitProg_fine n

/-- What it sees. -/
example : (Shelf.run demoSurround visitProg 4 [] ⟨[], []⟩).map (·.1)
    = .ok [.done, .done, .elements [3, 4, 6, 100, 31], .elements [5]] := by
  decide +kernel

/-- A program that panics twice and goes on. -/
def stubbornProg : List (Option (Reply UInt32 Int)) → Cmd UInt32 Int
  | [] => .newMap [(5, 50), (1, 10), (9, 90)] demoHasher
  | [_] => .onMap 0 (.index 7)
  | [_, none] => .onMap 0 (.indexMut 5 51)
  | [_, _, _] => .onMap 0 (.indexMut 7 70)
  | _ => .onMap 0 (.get 5)

theorem stubbornProg_fine (seen : List (Option (Reply UInt32 Int))) : (stubbornProg seen).Fine u32Ty := by
  have hm : DistinctKeys u32Ty.eq [((5 : UInt32), (50 : Int)), (1, 10), (9, 90)] := by
    unfold DistinctKeys; decide +kernel
  unfold stubbornProg
  split <;> first
    | trivial
    | exact ⟨hm, by decide, by intro f g h; cases h⟩

example (n : Nat) := C98_with_panics_caught demoSurround u32Ty_lawful u32Ty_lawful.eq.refl
  (fun l => l.reverse_perm) stubbornProg stubbornProg_fine n

example : (Shelf.runCaught demoSurround stubbornProg 5 [] ⟨[], []⟩).map (·.1)
    = .ok [some .done, none, some (.saw (.value (some 50))), none, some (.saw (.value (some 51)))] := by
  decide +kernel

end FC
