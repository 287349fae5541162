import Mathlib.Data.List.Induction
import Mathlib.Tactic.Linarith
import Verif.Spec.Data
import Verif.Lemmas.Py

/-!
# C172: multi-fidelity arrays
-/

namespace Mfpml.Props

open Mfpml Mfpml.Spec Mfpml.Data

variable {A : Type}

theorem data_run_append (pre post : List (Op A)) : run (pre ++ post) = post.foldl step (run pre) := List.foldl_append

theorem data_objs_length (ops : List (Op A)) : (run ops).objs.length = ops.countP Constructs := by
  induction ops using List.reverseRecOn with
  | nil => rfl
  | append_singleton ops op ih =>
    rw [data_run_append, List.countP_append]
    simp only [List.foldl_cons, List.foldl_nil]
    cases op <;> simp [step, Constructs, ih]

theorem data_kept {o : ℕ} {data : Option ℕ} : ∀ (post : List (Op A)) (st : Store A), st.objs[o]? = some data → (∀ r, .call o r ∉ post) → (post.foldl step st).objs[o]? = some data := by
  intro post
  induction post with
  | nil => intro st h _; exact h
  | cons op post ih =>
    intro st h hc
    refine ih _ ?_ fun r hr => hc r (List.mem_cons_of_mem _ hr)
    cases op with
    | newList l => exact h
    | change r l => exact h
    | new dt =>
      have := (List.getElem?_eq_some_iff.mp h).1
      simp only [step]
      rw [List.getElem?_append_left this]
      exact h
    | call o' r =>
      have hne : o' ≠ o := fun e => hc r (by rw [e]; exact List.mem_cons_self)
      simp only [step]
      rw [List.getElem?_set_ne hne]
      exact h

theorem lastGiven_objs {ops : List (Op A)} {o : ℕ} {data : Option ℕ} (h : LastGiven ops o data) : (run ops).objs[o]? = some data := by
  rcases h with ⟨pre, post, rfl, hn, hc⟩ | ⟨pre, post, r, rfl, hn, rfl, hc⟩
  · rw [data_run_append, List.foldl_cons]
    refine data_kept post _ ?_ hc
    simp only [step]
    rw [List.getElem?_append_right (by rw [data_objs_length, hn]), data_objs_length, hn]
    simp
  · rw [data_run_append, List.foldl_cons]
    refine data_kept post _ ?_ hc
    simp only [step]
    rw [List.getElem?_set_self]
    rw [data_objs_length]; exact hn

theorem listGet_nat (l : List A) (i : ℕ) (hi : i < l.length) : listGet l (i : ℤ) = .ok l[i] := by
  have e1 : ¬ ((i : ℤ) < 0) := by omega
  simp only [listGet, if_neg e1, Int.toNat_natCast, List.getElem?_eq_getElem hi]

theorem mapM_listGet (len : A → ℕ) (l : List A) : ∀ n, n ≤ l.length →
    (List.range n).mapM (fun i : ℕ => (do let a ← listGet l i; .ok (len a) : Py ℕ)) = .ok ((l.take n).map len) := by
  intro n
  induction n with
  | zero => intro _; simp; rfl
  | succ n ih =>
    intro hn
    rw [List.range_succ, List.mapM_append, ih (by omega)]
    rw [List.mapM_cons, List.mapM_nil, listGet_nat l n (by omega)]
    have e : (l.take (n + 1)).map len = (l.take n).map len ++ [len l[n]] := by
      rw [List.take_add_one, List.getElem?_eq_getElem (show n < l.length by omega), List.map_append]
      rfl
    rw [e]
    rfl

/-- C172. Whatever a program does with lists and `mfArray` objects, an `mfArray` shows the present contents of the list it was given last: `n_levels` is its length, `hf` its first entry, `arr[i]` entry `i`, `arr[-k]` the `k`-th entry
from the end, `IndexError` for all other positions, and `size` lists the lengths of all entries, in order. -/
theorem C172_shows (len : A → ℕ) (ops : List (Op A)) (o r : ℕ) (l : List A) (h : LastGiven ops o (some r)) (hl : (run ops).lists[r]? = some l) :
    (run ops).nLevels o = .ok l.length ∧ (run ops).size len o = .ok (l.map len) ∧ (run ops).hf o = (run ops).getItem o 0 ∧
    (∀ (i : ℕ) (hi : i < l.length), (run ops).getItem o i = .ok l[i]) ∧
    (∀ (k : ℕ) (_ : 0 < k) (hk : k ≤ l.length), (run ops).getItem o (-k) = .ok (l[l.length - k]'(by omega))) ∧
    ∀ i : ℤ, i < -l.length ∨ (l.length : ℤ) ≤ i → (run ops).getItem o i = .error .indexError := by
  have hd : (run ops).data o = .ok l := by simp only [Store.data, lastGiven_objs h, hl]
  have hg : ∀ i, (run ops).getItem o i = listGet l i := fun i => by rw [Store.getItem, hd]; rfl
  refine ⟨by rw [Store.nLevels, hd]; rfl, ?_, by rw [Store.hf, Store.getItem], ?_, ?_, ?_⟩
  · rw [Store.size, Store.nLevels, hd]
    refine (mapM_listGet len l l.length le_rfl).trans ?_
    rw [List.take_length]
  · intro i hi
    rw [hg, listGet_nat l i hi]
  · intro k h0 hk
    rw [hg]
    have e1 : (-(k : ℤ)) < 0 := by omega
    have e2 : ¬ (-(k : ℤ) + l.length < 0) := by omega
    have e3 : (-(k : ℤ) + l.length).toNat = l.length - k := by omega
    simp only [listGet, if_pos e1, if_neg e2, e3]
    rw [List.getElem?_eq_getElem (by omega)]
  · intro i hi
    rw [hg]
    rcases hi with hi | hi
    · have e1 : i < 0 := by omega
      have e2 : i + l.length < 0 := by omega
      simp only [listGet, if_pos e1, if_pos e2]
    · have e1 : ¬ i < 0 := by omega
      have e2 : l[i.toNat]? = none := List.getElem?_eq_none (by omega)
      simp only [listGet, if_neg e1, e2]

/-- C172 (without data). An `mfArray` that was given `None` last raises `TypeError` for everything. -/
theorem C172_none (len : A → ℕ) (ops : List (Op A)) (o : ℕ) (h : LastGiven ops o none) :
    (run ops).nLevels o = .error .typeError ∧ (run ops).size len o = .error .typeError ∧ (run ops).hf o = .error .typeError ∧ ∀ i, (run ops).getItem o i = .error .typeError := by
  have hd : (run ops).data o = .error .typeError := by simp only [Store.data, lastGiven_objs h]
  refine ⟨by rw [Store.nLevels, hd]; rfl, by rw [Store.size, Store.nLevels, hd]; rfl, by rw [Store.hf, hd]; rfl, fun i => by rw [Store.getItem, hd]; rfl⟩

/-- C172 (lists). Constructing and calling `mfArray` objects changes no list. -/
theorem C172_lists (ops : List (Op A)) (o : Option ℕ) (o' r : ℕ) : (run (ops ++ [.new o])).lists = (run ops).lists ∧ (run (ops ++ [.call o' r])).lists = (run ops).lists := by
  constructor <;> rw [data_run_append] <;> rfl

/-- Two objects that share a list, which is changed afterwards; one of them is then given another list. -/
example : LastGiven (A := ℕ) [.newList [5, 7], .new (some 0), .new (some 0), .newList [1, 2, 3], .call 0 1, .change 0 [9]] 0 (some 1) ∧
    LastGiven (A := ℕ) [.newList [5, 7], .new (some 0), .new (some 0), .newList [1, 2, 3], .call 0 1, .change 0 [9]] 1 (some 0) ∧
    (run (A := ℕ) [.newList [5, 7], .new (some 0), .new (some 0), .newList [1, 2, 3], .call 0 1, .change 0 [9]]).lists = [[9], [1, 2, 3]] := by
  refine ⟨Or.inr ⟨[.newList [5, 7], .new (some 0), .new (some 0), .newList [1, 2, 3]], [.change 0 [9]], 1, rfl, by decide, rfl, by simp⟩,
    Or.inl ⟨[.newList [5, 7], .new (some 0)], [.newList [1, 2, 3], .call 0 1, .change 0 [9]], rfl, by decide, by simp⟩, rfl⟩

end Mfpml.Props
