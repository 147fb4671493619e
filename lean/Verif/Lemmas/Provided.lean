import Verif.Spec.Provided
import Verif.Lemmas.SetOps

/-
The provided methods of an iterator, from its `next` alone.
-/

set_option autoImplicit false

namespace FC
variable {I X B C : Type}

theorem any_eq_isSome_find (p : X → Bool) (l : List X) : l.any p = (l.find? p).isSome := by
  rw [Bool.eq_iff_iff, List.find?_isSome, List.any_eq_true]

theorem HasLeft.next {next : I → Res (Option X × I)} {it : I} {l : List X}
    (h : HasLeft next it l) :
    ∃ it', next it = .ok (l.head?, it') ∧ HasLeft next it' l.tail := by
  obtain ⟨st, h1⟩ := h 1
  unfold rcalls at h1
  simp only [Res.bind_eq_ok, Res.pure_eq, Res.ok.injEq, Prod.mk.injEq, firstCalls_succ,
    List.cons.injEq] at h1
  obtain ⟨⟨o, it'⟩, hn, _, _, ⟨ho, _⟩, _⟩ := h1
  simp only at ho
  subst ho
  refine ⟨it', hn, fun n => ?_⟩
  obtain ⟨st, h2⟩ := h (n + 1)
  unfold rcalls at h2
  rw [hn] at h2
  simp only [Res.ok_bind, Res.bind_eq_ok, Res.pure_eq, Res.ok.injEq, Prod.mk.injEq, firstCalls_succ,
    List.cons.injEq] at h2
  obtain ⟨⟨ls, st'⟩, h3, ⟨_, h4⟩, h5⟩ := h2
  simp only at h4 h5
  subst h4
  exact ⟨st', h3⟩

theorem Describes.hasLeft {next : I → Res (Option X × I)} {inv : I → Prop} {rest : I → List X}
    (h : Describes next inv rest) {it : I} (hi : inv it) : HasLeft next it (rest it) := fun n =>
  let ⟨st, h1, _⟩ := h.rcalls n it hi
  ⟨st, h1⟩

theorem HasLeft.tryFold {next : I → Res (Option X × I)} (f : B → X → Res (Flow B C)) :
    ∀ (l : List X) (it : I) (b : B) (n : Nat), HasLeft next it l → l.length < n →
    match listTryFold f b l with
    | .ok (w, rest) => ∃ it', tryFold next f n b it = some (.ok (w, it')) ∧ HasLeft next it' rest
    | .panic => FC.tryFold next f n b it = some .panic
    | .ub => FC.tryFold next f n b it = some .ub := by
  intro l
  induction l with
  | nil =>
    intro it b n h hn
    obtain ⟨n, rfl⟩ : ∃ m, n = m + 1 := ⟨n - 1, by simp at hn; omega⟩
    obtain ⟨it', h1, h2⟩ := h.next
    simp only [listTryFold, FC.tryFold, h1, List.head?_nil]
    exact ⟨it', rfl, h2⟩
  | cons x xs ih =>
    intro it b n h hn
    obtain ⟨n, rfl⟩ : ∃ m, n = m + 1 := ⟨n - 1, by simp at hn; omega⟩
    obtain ⟨it', h1, h2⟩ := h.next
    simp only [listTryFold, FC.tryFold, h1, List.head?_cons]
    have hn' : xs.length < n := by simp at hn; omega
    cases hf : f b x with
    | panic => rfl
    | ub => rfl
    | ok w =>
      cases w with
      | go b' => exact ih it' b' n h2 hn'
      | stop c => exact ⟨it', rfl, h2⟩

theorem HasLeft.fold {next : I → Res (Option X × I)} (f : B → X → Res B) :
    ∀ (l : List X) (it : I) (b : B) (n : Nat), HasLeft next it l → l.length < n →
      iterFold next f n b it = some (listFold f b l) := by
  intro l
  induction l with
  | nil =>
    intro it b n h hn
    obtain ⟨n, rfl⟩ : ∃ m, n = m + 1 := ⟨n - 1, by simp at hn; omega⟩
    obtain ⟨it', h1, h2⟩ := h.next
    simp only [listFold, iterFold, h1, List.head?_nil]
  | cons x xs ih =>
    intro it b n h hn
    obtain ⟨n, rfl⟩ : ∃ m, n = m + 1 := ⟨n - 1, by simp at hn; omega⟩
    obtain ⟨it', h1, h2⟩ := h.next
    simp only [listFold, iterFold, h1, List.head?_cons]
    have hn' : xs.length < n := by simp at hn; omega
    cases hf : f b x with
    | panic => rfl
    | ub => rfl
    | ok b' => exact ih it' b' n h2 hn'

theorem HasLeft.nth {next : I → Res (Option X × I)} :
    ∀ (k : Nat) (l : List X) (it : I), HasLeft next it l →
      ∃ it', iterNth next k it = .ok (l[k]?, it') ∧ HasLeft next it' (l.drop (k + 1)) := by
  intro k
  induction k with
  | zero =>
    intro l it h
    obtain ⟨it', h1, h2⟩ := h.next
    exact ⟨it', by rw [iterNth, h1, List.head?_eq_getElem?], by rwa [← List.tail_drop, List.drop_zero]⟩
  | succ k ih =>
    intro l it h
    obtain ⟨it', h1, h2⟩ := h.next
    cases l with
    | nil =>
      refine ⟨it', ?_, h2⟩
      rw [iterNth, h1]
      rfl
    | cons x xs =>
      obtain ⟨it'', h3, h4⟩ := ih xs it' h2
      refine ⟨it'', ?_, h4⟩
      rw [iterNth, h1]
      exact h3

theorem listFold_ok (g : B → X → B) (b : B) (l : List X) :
    listFold (fun b x => .ok (g b x)) b l = .ok (l.foldl g b) := by
  induction l generalizing b with
  | nil => rfl
  | cons x xs ih => simp only [listFold, ih, List.foldl_cons]

/-- A stopping predicate, by what is kept of the items passed over. -/
theorem listTryFold_stop (p : X → Bool) (g : B → X → B) (c : B → X → C) (b : B) (l : List X) :
    listTryFold (fun b x => .ok (if p x then Flow.stop (c b x) else .go (g b x))) b l
      = .ok ((match l.find? p with
          | some x => Flow.stop (c ((l.takeWhile fun x => !p x).foldl g b) x)
          | none => Flow.go (l.foldl g b)), (l.dropWhile fun x => !p x).tail) := by
  induction l generalizing b with
  | nil => rfl
  | cons x xs ih =>
    by_cases hp : p x = true
    · simp [listTryFold, hp]
    · simp only [Bool.not_eq_true] at hp
      simp only [listTryFold, hp, Bool.false_eq_true, if_false]
      rw [ih]
      simp [hp]

theorem foldl_count (l : List X) (c : Nat) : l.foldl (fun c _ => c + 1) c = c + l.length := by
  induction l generalizing c with
  | nil => rfl
  | cons x xs ih => rw [List.foldl_cons, ih, List.length_cons]; omega

theorem foldl_last (l : List X) (o : Option X) :
    l.foldl (fun _ x => some x) o = l.getLast?.or o := by
  induction l generalizing o with
  | nil => simp
  | cons x xs ih =>
    rw [List.foldl_cons, ih]
    cases xs <;> simp [List.getLast?_cons]

theorem foldl_push (l acc : List X) : l.foldl (fun acc x => acc ++ [x]) acc = acc ++ l := by
  induction l generalizing acc with
  | nil => simp
  | cons x xs ih => simp [ih]

theorem foldl_unit {A : Type} (l : List A) (u : Unit) : l.foldl (fun _ _ => ()) u = () := rfl

theorem findIdx?_takeWhile (p : X → Bool) (l : List X) :
    l.findIdx? p = (l.find? p).map fun _ => (l.takeWhile fun x => !p x).length := by
  induction l with
  | nil => rfl
  | cons x xs ih =>
    by_cases hp : p x = true
    · simp [List.findIdx?_cons, hp]
    · simp only [Bool.not_eq_true] at hp
      simp only [List.findIdx?_cons, hp, ih, Option.map_map, Bool.false_eq_true, if_false,
        List.find?_cons, List.takeWhile_cons, Bool.not_false, if_true]
      cases xs.find? p <;> simp

theorem HasLeft.stops {next : I → Res (Option X × I)} {it : I} {l : List X}
    (h : HasLeft next it l) : StopsAsList next it l where
  tryFold f b n hn := HasLeft.tryFold f l it b n h hn
  find p n hn := by
    have := HasLeft.tryFold (fun (_ : Unit) x => .ok (if p x then Flow.stop (x, ()) else .go ()))
      l it () n h hn
    rw [listTryFold_stop p (fun _ _ => ()) (fun _ x => (x, ()))] at this
    obtain ⟨it', h1, h2⟩ := this
    refine ⟨it', ?_, h2⟩
    unfold iterFind
    simp only [quiet, Res.map]
    rw [h1]
    cases l.find? p <;> rfl
  position p n hn := by
    have := HasLeft.tryFold (fun (a : Nat × Unit) x =>
      .ok (if p x then Flow.stop (a.1, ()) else .go (a.1 + 1, ()))) l it (0, ()) n h hn
    rw [listTryFold_stop p (fun (a : Nat × Unit) _ => (a.1 + 1, ())) (fun a _ => (a.1, ()))] at this
    obtain ⟨it', h1, h2⟩ := this
    refine ⟨it', ?_, h2⟩
    unfold iterPosition
    simp only [quiet, Res.map]
    rw [h1, findIdx?_takeWhile]
    have hc : ∀ (l : List X) (c : Nat),
        (l.foldl (fun (a : Nat × Unit) _ => (a.1 + 1, ())) (c, ())).1 = c + l.length := by
      intro l
      induction l with
      | nil => intro c; rfl
      | cons x xs ih => intro c; rw [List.foldl_cons, ih, List.length_cons]; omega
    cases l.find? p <;> simp [hc]
  any p n hn := by
    have := HasLeft.tryFold (fun (_ : Unit) x => .ok (if p x then Flow.stop () else .go ()))
      l it () n h hn
    rw [listTryFold_stop p (fun _ _ => ()) (fun _ _ => ())] at this
    obtain ⟨it', h1, h2⟩ := this
    refine ⟨it', ?_, h2⟩
    unfold iterAny
    simp only [quiet, Res.map]
    rw [h1, any_eq_isSome_find]
    cases l.find? p <;> rfl
  all p n hn := by
    have := HasLeft.tryFold (fun (_ : Unit) x => .ok (if !p x then Flow.stop () else .go ()))
      l it () n h hn
    rw [listTryFold_stop (fun x => !p x) (fun _ _ => ()) (fun _ _ => ())] at this
    obtain ⟨it', h1, h2⟩ := this
    refine ⟨it', ?_, by simpa using h2⟩
    have hf : (fun (_ : Unit) x => Res.ok (if p x then Flow.go () else Flow.stop ()))
        = fun (_ : Unit) x => Res.ok (if !p x then (Flow.stop () : Flow Unit Unit) else .go ()) := by
      funext _ x
      cases p x <;> rfl
    unfold iterAll
    simp only [quiet, Res.map]
    rw [hf, h1]
    have ha : l.all p = !(l.find? fun x => !p x).isSome := by
      rw [← any_eq_isSome_find, List.not_any_eq_all_not]
      simp
    rw [ha]
    cases l.find? (fun x => !p x) <;> rfl
  nth k := HasLeft.nth k l it h

theorem HasLeft.loops {next : I → Res (Option X × I)} {it : I} {l : List X}
    (h : HasLeft next it l) : LoopsAsList next it l where
  fold f b n hn := HasLeft.fold f l it b n h hn
  last n hn := by
    unfold iterLast
    rw [HasLeft.fold _ l it none n h hn, listFold_ok (fun _ x => some x), foldl_last]
    simp
  collect n hn := by
    unfold iterCollect
    rw [HasLeft.fold _ l it [] n h hn, listFold_ok (fun acc x => acc ++ [x]), foldl_push]
    rfl

theorem HasLeft.count {next : I → Res (Option X × I)} {it : I} {l : List X}
    (h : HasLeft next it l) (n : Nat) (hn : l.length < n) :
    iterCount next n it = some (.ok l.length) := by
  unfold iterCount
  rw [HasLeft.fold _ l it 0 n h hn, listFold_ok (fun c _ => c + 1), foldl_count, Nat.zero_add]

theorem listFold_map {Y : Type} (g : X → Y) (f : B → Y → Res B) (b : B) (l : List X) :
    listFold (fun acc x => f acc (g x)) b l = listFold f b (l.map g) := by
  induction l generalizing b with
  | nil => rfl
  | cons x xs ih =>
    simp only [listFold, List.map_cons]
    cases f b (g x) <;> simp [ih]

end FC
