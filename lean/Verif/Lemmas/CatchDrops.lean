import Verif.Lemmas.Catch
import Verif.Lemmas.Drops
import Verif.Model.CatchDrops

/-
Lemmas about drops when panics are caught.
-/

set_option autoImplicit false

namespace FC
variable {σ M K V Q α β : Type}

/-- `o` does what `c` does to the map `m`, and keeps account of the things `given` and of those in the
map, which `E` lists. -/
def Balances (E : M → List (Thing K V)) (o : Holding σ (Kept M K V) α) (c : Holding σ M α) (m : M)
    (given : List (Thing K V)) (held : α → List (Thing K V)) (post : α → M → Prop) : Prop :=
  ∀ log s, match o (m, log) s with
    | .done a m' s' => c m s = .done a m'.1 s' ∧ post a m'.1 ∧
        ∃ ev, m'.2 = log ++ ev ∧ (droppedIn ev ++ (held a ++ E m'.1)).Perm ((given ++ E m) ++ clonedIn ev)
    | .panicked m' => c m s = .panicked m'.1 ∧
        ∃ ev, m'.2 = log ++ ev ∧ (droppedIn ev ++ E m'.1).Perm ((given ++ E m) ++ clonedIn ev)
    | .ub => c m s = .ub

section
variable {E : M → List (Thing K V)}

theorem Balances.bind {o : Holding σ (Kept M K V) α} {c : Holding σ M α} {m : M}
    {given : List (Thing K V)} {held : α → List (Thing K V)} {post : α → M → Prop}
    {f : α → Holding σ (Kept M K V) β} {g : α → Holding σ M β}
    {held' : β → List (Thing K V)} {post' : β → M → Prop}
    (ho : Balances E o c m given held post)
    (hf : ∀ a m', post a m' → Balances E (f a) (g a) m' (held a) held' post') :
    Balances E (o >>= f) (c >>= g) m given held' post' := by
  intro log s
  have h := ho log s
  rw [Holding.bind_apply, Holding.bind_apply]
  cases e : o (m, log) s with
  | done a m' s' =>
    rw [e] at h
    obtain ⟨hc, hp, ev, hev, hb⟩ := h
    rw [hc]
    obtain ⟨m₁, log₁⟩ := m'
    dsimp only at hc hp hev hb ⊢
    have h2 := hf a m₁ hp log₁ s'
    cases e2 : f a (m₁, log₁) s' with
    | done b m₂ s₂ =>
      rw [e2] at h2
      obtain ⟨hc2, hp2, ev2, hev2, hb2⟩ := h2
      refine ⟨hc2, hp2, ev ++ ev2, by rw [hev2, hev, List.append_assoc], ?_⟩
      rw [droppedIn_append, clonedIn_append]
      exact perm_balance hb hb2
    | panicked m₂ =>
      rw [e2] at h2
      obtain ⟨hc2, ev2, hev2, hb2⟩ := h2
      refine ⟨hc2, ev ++ ev2, by rw [hev2, hev, List.append_assoc], ?_⟩
      rw [droppedIn_append, clonedIn_append]
      exact perm_balance hb hb2
    | ub => rw [e2] at h2; exact h2
  | panicked m' =>
    rw [e] at h
    rw [h.1]
    exact ⟨rfl, h.2⟩
  | ub => rw [e] at h; rw [h]

theorem Balances.pure {a : α} {m : M} {given : List (Thing K V)} {held : α → List (Thing K V)}
    {post : α → M → Prop} (hp : post a m) (h : (held a).Perm given) :
    Balances E (Pure.pure a : Holding σ (Kept M K V) α) (Pure.pure a) m given held post :=
  fun _ _ => ⟨rfl, hp, [], (List.append_nil _).symm, by
    simpa [droppedIn, clonedIn] using h.append_right _⟩

theorem Balances.read {c : M → Call σ α} {m : M} {post : α → Prop} (h : Behaves True True (c m) post)
    (given : List (Thing K V)) :
    Balances E (Holding.guard given (Holding.read (c ·.1))) (Holding.read c) m given (fun _ => given)
      (fun a m' => post a ∧ m' = m) := by
  intro log s
  have h' := h s
  unfold Holding.guard Holding.read
  cases e : c m s with
  | ok r =>
    rw [e] at h'
    simp only [e]
    exact ⟨trivial, ⟨h', trivial⟩, [], (List.append_nil _).symm, by simp [droppedIn, clonedIn]⟩
  | panic =>
    simp only [e]
    refine ⟨trivial, given.map .dropped, rfl, ?_⟩
    rw [droppedIn_map, clonedIn_map, List.append_nil]
  | ub => simp only [e]

theorem Balances.panic {m : M} (given : List (Thing K V)) {held : α → List (Thing K V)}
    {post : α → M → Prop} :
    Balances E (Holding.guard given Holding.panic : Holding σ (Kept M K V) α) Holding.panic m given held
      post := by
  intro log s
  refine ⟨rfl, given.map .dropped, rfl, ?_⟩
  rw [droppedIn_map, clonedIn_map, List.append_nil]

theorem Balances.panicNone {m : M} {held : α → List (Thing K V)} {post : α → M → Prop} :
    Balances E (Holding.panic : Holding σ (Kept M K V) α) Holding.panic m [] held post :=
  fun log _ => ⟨rfl, [], (List.append_nil _).symm, by simp [droppedIn, clonedIn]⟩

theorem Balances.ub {m : M} {given : List (Thing K V)} {held : α → List (Thing K V)}
    {post : α → M → Prop} :
    Balances E (Holding.ub : Holding σ (Kept M K V) α) Holding.ub m given held post := fun _ _ => rfl

/-- Dropping, then going on. -/
theorem Balances.drop {f : Unit → Holding σ (Kept M K V) α} {c : Holding σ M α} {m : M}
    {held : α → List (Thing K V)} {post : α → M → Prop} (ts : List (Thing K V))
    (h : Balances E (f ()) c m [] held post) :
    Balances E (Holding.drop ts >>= f) c m ts held post := by
  have e : c = (Pure.pure () : Holding σ M Unit) >>= fun _ => c := rfl
  rw [e]
  refine Balances.bind (held := fun _ => []) (post := fun _ m' => m' = m) ?_ (fun _ m' hm => by rw [hm]; exact h)
  intro log s
  refine ⟨rfl, rfl, ts.map .dropped, rfl, ?_⟩
  rw [droppedIn_map, clonedIn_map, List.append_nil]
  exact .refl _

end

section
variable {A : CallApi σ M K V Q}

theorem CallApi.overwrite_balances (hA : A.Inside) (m : M) (i : Nat) (v : V) (rest : List (Thing K V))
    (h : i < (A.entries m).length) :
    Balances (fun m => things (A.entries m)) (Holding.guard rest (A.overwrite i v)) (A.assign i v) m
      (.value v :: rest) (fun _ => rest) (fun _ m' => (A.entries m').length = (A.entries m).length) := by
  intro log s
  obtain ⟨e, he⟩ : ∃ e, (A.entries m)[i]? = some e := ⟨_, List.getElem?_eq_getElem h⟩
  have hp := setVal_things v he
  unfold Holding.guard CallApi.overwrite
  simp only [he]
  refine ⟨rfl, CallApi.write_length hA m i v, [.dropped (.value e.2)], rfl, ?_⟩
  rw [hA.write]
  simp only [droppedIn, clonedIn, List.filterMap_cons, List.filterMap_nil, List.append_nil,
    List.cons_append, List.nil_append]
  refine (List.perm_middle.symm).trans ?_
  refine (List.Perm.append_left rest hp).trans ?_
  exact List.perm_middle

theorem CallApi.writeAllO_balances (hA : A.Inside) (rvs : List (Ref V × V)) (stop : Option Nat) (m : M)
    (h : ∀ rv ∈ rvs, rv.1.idx < (A.entries m).length) :
    Balances (fun m => things (A.entries m)) (A.writeAllO rvs stop) (A.writeAll rvs stop) m
      (rvs.map fun rv => .value rv.2) (fun _ => []) (fun _ _ => True) := by
  induction rvs generalizing stop m with
  | nil =>
    match stop with
    | none => exact Balances.pure trivial (.refl _)
    | some 0 => exact Balances.panic []
    | some (n + 1) => exact Balances.panicNone
  | cons rv rvs ih =>
    have go : ∀ stop', Balances (fun m => things (A.entries m))
        (do Holding.guard (rvs.map fun rv => .value rv.2) (A.overwrite rv.1.idx rv.2)
            A.writeAllO rvs stop')
        (do A.assign rv.1.idx rv.2
            A.writeAll rvs stop') m
        ((rv :: rvs).map fun rv => .value rv.2) (fun _ => []) (fun _ _ => True) := fun stop' =>
      (CallApi.overwrite_balances hA m rv.1.idx rv.2 _ (h rv List.mem_cons_self)).bind
        fun _ m' hm => ih stop' m' fun rv' h' => by rw [hm]; exact h rv' (List.mem_cons_of_mem _ h')
    match stop with
    | none => exact go none
    | some 0 => exact Balances.panic _
    | some (n + 1) => exact go (some n)

theorem CallApi.show_any (A : CallApi σ M K V Q) (op : MapOp V Q) (m : M) :
    Behaves True True (A.show op m) (fun _ => True) := behaves_any _

theorem CallApi.attemptO_balances (hA : A.Inside) (x : Attempt V Q) (m : M) :
    Balances (fun m => things (A.entries m)) (A.attemptO x) (A.attempt x) m x.op.brings (fun _ => [])
      (fun _ _ => True) := by
  obtain ⟨op, stop⟩ := x
  have after : ∀ (rvs : List (Ref V × V)) (out : Out K V) (m : M),
      (∀ rv ∈ rvs, rv.1.idx < (A.entries m).length) →
      Balances (fun m => things (A.entries m))
        (do A.writeAllO rvs stop; return out) (do A.writeAll rvs stop; return out) m
        (rvs.map fun rv => .value rv.2) (fun _ => []) (fun _ _ => True) := fun rvs out m h =>
    (CallApi.writeAllO_balances hA rvs stop m h).bind fun _ _ _ => Balances.pure trivial (.refl _)
  have plain : Balances (fun m => things (A.entries m))
      (do let out ← Holding.read (A.show op ·.1); A.writeAllO [] stop; return out)
      (do let out ← Holding.read (A.show op); A.writeAll [] stop; return out) m
      [] (fun _ => []) (fun _ _ => True) := by
    have := Balances.read (E := fun m => things (A.entries m)) (c := A.show op) (m := m) (behaves_any _) []
    have e : Holding.guard [] (Holding.read (A.show op ·.1)) =
        (Holding.read (A.show op ·.1) : Holding σ (Kept M K V) _) := by
      funext m s
      unfold Holding.guard
      cases Holding.read (fun x : Kept M K V => A.show op x.1) m s <;> simp
    rw [e] at this
    exact this.bind fun out m' _ => after [] out m' (by simp)
  cases op with
  | getMut q v =>
    refine (Balances.read (c := (A.lookup · q)) (hA.lookup m q) _).bind fun o m' h => ?_
    obtain ⟨ho, e⟩ := h
    rw [e]
    cases o with
    | none => exact Balances.drop _ (after [] _ m (by simp))
    | some r =>
      exact after [(r.2, v)] _ m (by simpa using (List.getElem?_eq_some_iff.1 (ho r rfl)).1)
  | indexMut q v =>
    refine (Balances.read (c := (A.lookup · q)) (hA.lookup m q) _).bind fun o m' h => ?_
    obtain ⟨ho, e⟩ := h
    rw [e]
    cases o with
    | none => exact Balances.panic _
    | some r =>
      exact after [(r.2, v)] _ m (by simpa using (List.getElem?_eq_some_iff.1 (ho r rfl)).1)
  | getManyMut qvs =>
    refine (Balances.read (c := (A.getManyMut · (qvs.map (·.1)))) (CallApi.getManyMut_inside hA m _) _).bind
      fun o m' h => ?_
    obtain ⟨ho, e⟩ := h
    rw [e]
    cases o with
    | none => exact Balances.drop _ (after [] _ m (by simp))
    | some rs =>
      obtain ⟨hl, hrs⟩ := ho rs rfl
      show Balances _ (if (rs.map Ref.idx).Nodup then _ else _) (if (rs.map Ref.idx).Nodup then _ else _)
        _ _ _ _
      by_cases hn : (rs.map Ref.idx).Nodup
      · rw [if_pos hn, if_pos hn]
        have e : (rs.zip (qvs.map (·.2))).map (fun rv => (Thing.value rv.2 : Thing K V))
            = qvs.map (fun qv => .value qv.2) := by
          have e2 : (rs.zip (qvs.map (·.2))).map Prod.snd = qvs.map (·.2) :=
            List.map_snd_zip (by simpa using hl.ge)
          calc _ = ((rs.zip (qvs.map (·.2))).map Prod.snd).map Thing.value := by
                rw [List.map_map]; rfl
            _ = _ := by rw [e2, List.map_map]; rfl
        have := after (rs.zip (qvs.map (·.2))) (.many (some (rs.map Ref.val))) m
          (fun rv hrv => hrs rv.1 (List.of_mem_zip hrv).1)
        rw [e] at this
        exact this
      · rw [if_neg hn, if_neg hn]
        exact Balances.ub
  | _ => exact plain

theorem CallApi.caughtO_tracks (hA : A.Inside) (m : M) (x : Attempt V Q) (left : σ) :
    Tallies (A.caughtO m x left) (A.caught m x left) (x.op.brings ++ things (A.entries m))
      (fun r => things (A.entries r.2)) (fun _ => True) := by
  intro s log
  have h := CallApi.attemptO_balances hA x m log s
  unfold CallApi.caughtO CallApi.caught
  cases e : A.attemptO x (m, log) s with
  | done out m' s' =>
    rw [e] at h
    obtain ⟨hc, _, ev, hev, hb⟩ := h
    rw [hc]
    exact ⟨rfl, trivial, ev, hev, hb⟩
  | panicked m' =>
    rw [e] at h
    obtain ⟨hc, ev, hev, hb⟩ := h
    rw [hc]
    exact ⟨rfl, trivial, ev, hev, hb⟩
  | ub => rw [e] at h; rw [h]

theorem CallApi.caughtRunO_tracks (hA : A.Inside) (xs : List (Attempt V Q × σ)) (m : M) :
    Tallies (A.caughtRunO m xs) (A.caughtRun m xs)
      (things (A.entries m) ++ xs.flatMap (·.1.op.brings))
      (fun r => things (A.entries r.2)) (fun _ => True) := by
  induction xs generalizing m with
  | nil => exact Tallies.pure trivial (by simp)
  | cons x xs ih =>
    refine Tallies.bind (((CallApi.caughtO_tracks hA m x.1 x.2).holding _).mono ?_ (fun _ _ => .refl _)
      (fun _ _ => trivial)) fun r _ => (ih r.2).bind fun rs _ => Tallies.pure trivial (.refl _)
    rw [List.flatMap_cons, ← List.append_assoc]
    exact List.perm_append_comm.append_right _

theorem CallApi.caughtUseO_tracks (hA : A.Inside) {o : Own σ K V M} {c : Call σ M}
    {given : List (Thing K V)} (h : Tallies o c given (fun m => things (A.entries m)) (fun _ => True))
    (xs : List (Attempt V Q × σ)) :
    Tallies (A.caughtUseO o xs) (c >>= fun m => A.caughtRun m xs) (given ++ xs.flatMap (·.1.op.brings))
      (fun r => things (A.entries r.2)) (fun _ => True) :=
  (h.holding _).bind fun m _ => CallApi.caughtRunO_tracks hA xs m

theorem CallApi.caughtSessionO_tracks (hA : A.Inside) {o : Own σ K V M} {c : Call σ M}
    {given : List (Thing K V)} (h : Tallies o c given (fun m => things (A.entries m)) (fun _ => True))
    (xs : List (Attempt V Q × σ)) :
    Tallies (A.caughtSessionO o xs)
      (do let r ← A.caughtSession c xs; return r.1) (given ++ xs.flatMap (·.1.op.brings))
      (fun _ => []) (fun _ => True) := by
  have e : (do let r ← A.caughtSession c xs; return r.1 : Call σ _)
      = (c >>= fun m => A.caughtRun m xs) >>= fun r => pure r.1 := by
    simp [CallApi.caughtSession]
  rw [e]
  refine (CallApi.caughtUseO_tracks hA h xs).bind fun r _ => ?_
  have := Tallies.dropThen (σ := σ) (f := fun _ => pure r.1) (c := pure r.1) (rest := [])
    (held := fun _ => []) (post := fun _ => True) (Tallies.pure trivial (.refl _)) (things (A.entries r.2))
  rwa [List.append_nil] at this

end

end FC
