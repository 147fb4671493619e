import Verif.Spec.HonestInts
import Verif.Spec.Integers
import Verif.Lemmas.HonestCode
import Verif.Lemmas.Int

/-
Range maps over integers of the caller's own that are right whenever they answer.
-/

set_option autoImplicit false

namespace FC
variable [Target]
variable {σ K V Q : Type} {p : Prop} {c : RangeCode σ K V Q} {num : K → Int} {numQ : Q → Int} {borrow : K → Q}

/-- The entries are consecutive and between the bounds. -/
structure RMap.Consecutive (num : K → Int) (m : RMap K V) : Prop where
  keys : ∀ (j : Nat) (e : K × V), m.entries[j]? = some e → num e.1 = num m.min + j
  max : num m.max = num m.min + m.entries.length - 1
  some : m.entries ≠ []
  size : m.entries.length < usz

omit [Target] in
theorem setVal_at {es : List (K × V)} {i j : Nat} {v : V} {e : K × V}
    (h : (setVal es i v)[j]? = some e) : ∃ e', es[j]? = some e' ∧ e'.1 = e.1 := by
  have hk := congrArg (fun l : List K => l[j]?) (setVal_keys es i v)
  simp only [List.getElem?_map, h, Option.map_some] at hk
  cases he : es[j]? with
  | none => rw [he] at hk; simp at hk
  | some e' => rw [he] at hk; exact ⟨e', rfl, (Option.some.inj hk).symm⟩

theorem RMap.exact (hc : c.Honest p num numQ) (hbor : ∀ k, numQ (borrow k) = num k) :
    (RMap.api c).Exact (RMap.Consecutive num) p (fun a b => decide (numQ a = numQ b)) borrow where
  lookup m hm q := by
    show Behaves False p (RMap.lookup c m q) (fun o => o = scan _ borrow q 0 m.entries)
    have hmax := hm.max
    have none : ¬ (num m.min ≤ numQ q ∧ numQ q ≤ num m.max) →
        scan (fun a b => decide (numQ a = numQ b)) borrow q 0 m.entries = none := by
      intro hn
      rw [scan_none]
      intro e he
      obtain ⟨j, hj⟩ := List.getElem?_of_mem he
      have hk := hm.keys j e hj
      have hjl : j < m.entries.length := (List.getElem?_eq_some_iff.1 hj).1
      simp only [decide_eq_false_iff_not, hbor]
      intro hq
      apply hn
      constructor <;> omega
    unfold RMap.lookup
    refine (hc.ge q m.min).bind fun b1 h1 => ?_
    subst h1
    by_cases hge : num m.min ≤ numQ q
    · simp only [hge, decide_true, if_true]
      refine (hc.le q m.max).bind fun b2 h2 => ?_
      subst h2
      by_cases hle : numQ q ≤ num m.max
      · simp only [hle, decide_true, if_true]
        refine (hc.sub q m.min).bind fun d hd => (hc.toUsize d).bind fun o ho => ?_
        have hsz := hm.size
        have ho' := (ho (numQ q - num m.min).toNat).2 ⟨by omega, by omega⟩
        rw [ho']
        have hil : (numQ q - num m.min).toNat < m.entries.length := by omega
        have hi : m.entries[(numQ q - num m.min).toNat]? = some m.entries[(numQ q - num m.min).toNat] :=
          List.getElem?_eq_getElem hil
        have hk := hm.keys _ _ hi
        simp only [hi]
        refine .pure ?_
        have := scan_eq_of_unique (eq := fun a b => decide (numQ a = numQ b)) (borrow := borrow) (q := q)
          (i := 0) hi (by simp only [decide_eq_true_eq, hbor]; omega) (by
            intro j' e' hj' he'
            have := hm.keys j' e' he'
            simp only [decide_eq_false_iff_not, hbor]
            omega)
        rw [this, Nat.zero_add]
      · simp only [hle, decide_false]
        exact .pure (none (fun h => hle h.2)).symm
    · simp only [hge, decide_false]
      exact .pure (none (fun h => hge h.1)).symm
  same := hc.same
  write m i v hm := {
    keys := fun j e he => by
      obtain ⟨e', h1, h2⟩ := setVal_at he
      rw [← h2]
      exact hm.keys j e' h1
    max := by
      show num m.max = num m.min + (setVal m.entries i v).length - 1
      rw [setVal_length]
      exact hm.max
    some := by
      intro h
      apply hm.some
      have : (setVal m.entries i v).length = 0 := by
        have h : setVal m.entries i v = [] := h
        rw [h]; rfl
      rw [setVal_length] at this
      exact List.length_eq_zero_iff.1 this
    size := by
      show (setVal m.entries i v).length < usz
      rw [setVal_length]
      exact hm.size }
  entries _ _ _ := rfl
  lawful := ⟨fun a => by simp, fun a b h => by simpa using (of_decide_eq_true h).symm,
    fun a b c h1 h2 => by simpa using (of_decide_eq_true h1).trans (of_decide_eq_true h2)⟩

theorem RMap.fromVec_honest (hc : c.Honest p num numQ) {payload : List (K × V)} (hne : payload ≠ [])
    (hd : (payload.map fun e => num e.1).Nodup) (h32 : payload.length < usz) :
    Behaves False (p ∨ ¬ Contiguous (payload.map fun e => num e.1)) (RMap.fromVec c payload)
      (fun m => RMap.Consecutive num m ∧ m.entries.Perm payload) := by
  unfold RMap.fromVec
  have he : payload.isEmpty = false := by cases payload with | nil => exact absurd rfl hne | cons => rfl
  rw [he]
  simp only [Bool.false_eq_true, if_false]
  refine ((hc.sort payload).mono id Or.inl fun _ h => h).bind fun l hl => ?_
  obtain ⟨hp, hs⟩ := hl
  have hlen := hp.length_eq
  have hlne : l ≠ [] := fun h => hne (by rw [h] at hp; exact hp.nil_eq.symm)
  have hpk := hp.map fun e => num e.1
  have hdl : (l.map fun e => num e.1).Nodup := hpk.nodup_iff.2 hd
  have hle : (l.map fun e => num e.1).Pairwise (· ≤ ·) := List.pairwise_map.2 hs
  have hlt : (l.map fun e => num e.1).Pairwise (· < ·) :=
    (hle.and hdl).imp fun h => lt_of_le_of_ne h.1 h.2
  obtain ⟨first, rest, rfl⟩ := List.exists_cons_of_ne_nil hlne
  have hlast : (first :: rest).getLast? = some ((first :: rest).getLast (by simp)) :=
    List.getLast?_eq_some_getLast (by simp)
  rw [hlast]
  simp only [List.head?_cons]
  generalize hL : (first :: rest).getLast (by simp) = last
  have h0 : ((first :: rest).map fun e => num e.1)[0]? = some (num first.1) := rfl
  have hl1 : ((first :: rest).map fun e => num e.1)[((first :: rest).map fun e => num e.1).length - 1]?
      = some (num last.1) := by
    rw [← hL, List.getElem?_map, List.length_map, List.getLast_eq_getElem,
      List.getElem?_eq_getElem (by simp)]
    rfl
  have hgap := strict_gap hlt (Nat.zero_le _) h0 hl1
  rw [List.length_map] at hgap
  have hpos : 0 < (first :: rest).length := by simp
  have hcont : Contiguous (payload.map fun e => num e.1) →
      num last.1 - num first.1 = ((first :: rest).length : Int) - 1 := by
    intro hC
    have hmn : IsMin ((first :: rest).map fun e => num e.1) (num first.1) := by
      refine ⟨by simp, fun k hk => ?_⟩
      obtain ⟨j, hj⟩ := List.getElem?_of_mem hk
      have := strict_gap hlt (Nat.zero_le _) h0 hj
      omega
    have hmx : IsMax ((first :: rest).map fun e => num e.1) (num last.1) := by
      refine ⟨List.mem_of_getElem? hl1, fun k hk => ?_⟩
      obtain ⟨j, hj⟩ := List.getElem?_of_mem hk
      have hjl := (List.getElem?_eq_some_iff.1 hj).1
      have := strict_gap hlt (Nat.le_sub_one_of_lt hjl) hj hl1
      omega
    have := (contiguous_iff hdl hmn hmx).2 fun x h1 h2 =>
      hpk.mem_iff.2 (hC _ (hpk.mem_iff.1 hmn.1) _ (hpk.mem_iff.1 hmx.1) x h1 h2)
    rw [List.length_map] at this
    exact this
  refine ((hc.span last.1 first.1).mono id Or.inl fun _ h => h).bind fun d hd' => ?_
  refine ((hc.spanSize d).mono id Or.inl fun _ h => h).bind fun o ho => ?_
  have bad : num last.1 - num first.1 ≠ ((first :: rest).length : Int) - 1 →
      ¬ Contiguous (payload.map fun e => num e.1) := fun h hC => h (hcont hC)
  cases o with
  | none =>
    have : num last.1 - num first.1 ≠ ((first :: rest).length : Int) - 1 := by
      intro h
      have := (ho ((first :: rest).length - 1)).2 ⟨by omega, by omega⟩
      cases this
    intro s
    exact .inr (bad this)
  | some n =>
    obtain ⟨hn, -⟩ := (ho n).1 rfl
    refine .ite (fun h => ?_) (fun h => ?_)
    · have hspan : num last.1 - num first.1 = ((first :: rest).length : Int) - 1 := by omega
      refine .pure ⟨⟨fun j e hj => ?_, ?_, by simp, by show (first :: rest).length < usz; omega⟩, hp⟩
      · have hj : (first :: rest)[j]? = some e := hj
        exact consecutive hlt h0 hl1 (by rw [List.length_map]; exact hspan) (by rw [List.getElem?_map, hj]; rfl)
      · show num last.1 = num first.1 + ((first :: rest).length : Int) - 1
        omega
    · intro s
      exact .inr (bad (by omega))

end FC
