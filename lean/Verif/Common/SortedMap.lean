import Mathlib.Order.Defs.LinearOrder
import Mathlib.Tactic.Common

/-!
# A sorted association list standing for `std::collections::BTreeMap`

Only the operations the modelled code uses.  The order-based lookups stop early, as a search tree does; all
theorems about them are for maps whose keys are strictly increasing (`WF`), which every operation preserves.
-/

namespace Verif

/-- `BTreeMap<κ, ν>`: entries in key order.
The levels of crates/RustQuant_trading/src/limit_order_book.rs 27-28, the nodes of crates/RustQuant_data/src/curves.rs. -/
abbrev SMap (κ ν : Type*) := List (κ × ν)

namespace SMap
variable {κ ν : Type*} [LinearOrder κ]

/-- Strictly increasing keys. The invariant of the library type used at limit_order_book.rs 27-28. -/
def WF (m : SMap κ ν) : Prop := m.Pairwise (fun a b => a.1 < b.1)

/-- `BTreeMap::get`. Called at limit_order_book.rs 118 and 148, curves.rs 176 and 184. -/
def get? : SMap κ ν → κ → Option ν
  | [], _ => none
  | (k, v) :: m, k' => if k' = k then some v else get? m k'

/-- `BTreeMap::insert` (replacing an existing entry). Called at limit_order_book.rs 123, curves.rs 188 and 209. -/
def insert : SMap κ ν → κ → ν → SMap κ ν
  | [], k', v' => [(k', v')]
  | (k, v) :: m, k', v' =>
    if k' < k then (k', v') :: (k, v) :: m
    else if k' = k then (k', v') :: m
    else (k, v) :: insert m k' v'

/-- `BTreeMap::remove`. Called at limit_order_book.rs 154. -/
def remove : SMap κ ν → κ → SMap κ ν
  | [], _ => []
  | (k, v) :: m, k' => if k' = k then m else (k, v) :: remove m k'

theorem WF.tail {e : κ × ν} {m : SMap κ ν} (h : WF (e :: m)) : WF m :=
  (List.pairwise_cons.1 h).2

theorem WF.head_lt {e : κ × ν} {m : SMap κ ν} (h : WF (e :: m)) : ∀ x ∈ m, e.1 < x.1 :=
  (List.pairwise_cons.1 h).1

theorem wf_nil : WF ([] : SMap κ ν) := List.Pairwise.nil

theorem get?_eq_some_mem {m : SMap κ ν} {k : κ} {v : ν} (h : get? m k = some v) : (k, v) ∈ m := by
  induction m with
  | nil => simp [get?] at h
  | cons e m ih =>
    obtain ⟨k0, v0⟩ := e
    unfold get? at h
    split at h
    · simp_all
    · exact List.mem_cons_of_mem _ (ih h)

theorem get?_of_mem {m : SMap κ ν} (hw : WF m) {k : κ} {v : ν} (h : (k, v) ∈ m) : get? m k = some v := by
  induction m with
  | nil => simp at h
  | cons e m ih =>
    obtain ⟨k0, v0⟩ := e
    unfold get?
    rcases List.mem_cons.1 h with h | h
    · cases h; simp
    · have := hw.head_lt _ h
      simp only at this
      rw [if_neg (ne_of_gt this)]
      exact ih hw.tail h

theorem mem_iff_get? {m : SMap κ ν} (hw : WF m) {k : κ} {v : ν} : (k, v) ∈ m ↔ get? m k = some v :=
  ⟨get?_of_mem hw, get?_eq_some_mem⟩

theorem get?_none_of_lt {m : SMap κ ν} {k : κ} (h : ∀ x ∈ m, k < x.1) : get? m k = none := by
  induction m with
  | nil => rfl
  | cons e m ih =>
    obtain ⟨k0, v0⟩ := e
    unfold get?
    have := h (k0, v0) (by simp)
    rw [if_neg (ne_of_lt this)]
    exact ih fun x hx => h x (by simp [hx])

theorem mem_insert_key {m : SMap κ ν} {k : κ} {v : ν} {x : κ × ν} (h : x ∈ insert m k v) :
    x = (k, v) ∨ x ∈ m := by
  induction m with
  | nil => simp [insert] at h; exact Or.inl h
  | cons e m ih =>
    obtain ⟨k0, v0⟩ := e
    unfold insert at h
    split at h
    · simpa using h
    · split at h
      · rcases List.mem_cons.1 h with h | h
        · exact Or.inl h
        · exact Or.inr (by simp [h])
      · rcases List.mem_cons.1 h with h | h
        · exact Or.inr (by simp [h])
        · rcases ih h with h | h
          · exact Or.inl h
          · exact Or.inr (by simp [h])

theorem wf_insert {m : SMap κ ν} (hw : WF m) (k : κ) (v : ν) : WF (insert m k v) := by
  induction m with
  | nil => simp [insert, WF]
  | cons e m ih =>
    obtain ⟨k0, v0⟩ := e
    unfold insert
    split
    · rename_i hlt
      refine List.pairwise_cons.2 ⟨?_, hw⟩
      intro x hx
      rcases List.mem_cons.1 hx with rfl | hx
      · exact hlt
      · exact lt_trans hlt (hw.head_lt x hx)
    · split
      · rename_i h1 h2
        subst h2
        exact List.pairwise_cons.2 ⟨hw.head_lt, hw.tail⟩
      · rename_i h1 h2
        refine List.pairwise_cons.2 ⟨?_, ih hw.tail⟩
        intro x hx
        rcases mem_insert_key hx with rfl | hx
        · exact lt_of_le_of_ne (not_lt.1 h1) (Ne.symm h2)
        · exact hw.head_lt x hx

theorem get?_insert (m : SMap κ ν) (k : κ) (v : ν) (k' : κ) :
    get? (insert m k v) k' = if k' = k then some v else get? m k' := by
  induction m with
  | nil => simp [insert, get?]
  | cons e m ih =>
    obtain ⟨k0, v0⟩ := e
    unfold insert
    split
    · simp [get?]
    · split
      · rename_i h1 h2
        subst h2
        simp only [get?]
        split <;> rfl
      · simp only [get?]
        split
        · rename_i h1 h2 h3
          subst h3
          rw [if_neg (fun h => h2 h.symm)]
        · exact ih

theorem mem_remove {m : SMap κ ν} {k : κ} {x : κ × ν} (h : x ∈ remove m k) : x ∈ m := by
  induction m with
  | nil => simp [remove] at h
  | cons e m ih =>
    obtain ⟨k0, v0⟩ := e
    unfold remove at h
    split at h
    · simp [h]
    · rcases List.mem_cons.1 h with h | h
      · simp [h]
      · simp [ih h]

theorem wf_remove {m : SMap κ ν} (hw : WF m) (k : κ) : WF (remove m k) := by
  induction m with
  | nil => simp [remove, WF]
  | cons e m ih =>
    obtain ⟨k0, v0⟩ := e
    unfold remove
    split
    · exact hw.tail
    · exact List.pairwise_cons.2 ⟨fun x hx => hw.head_lt x (mem_remove hx), ih hw.tail⟩

theorem get?_remove {m : SMap κ ν} (hw : WF m) (k k' : κ) :
    get? (remove m k) k' = if k' = k then none else get? m k' := by
  induction m with
  | nil => simp [remove, get?]
  | cons e m ih =>
    obtain ⟨k0, v0⟩ := e
    unfold remove
    split
    · rename_i h
      subst h
      simp only [get?]
      split
      · rename_i h; subst h
        exact get?_none_of_lt hw.head_lt
      · rfl
    · rename_i h
      simp only [get?]
      split
      · rename_i h1; subst h1
        rw [if_neg (fun h' => h h'.symm)]
      · exact ih hw.tail

theorem ext {m m' : SMap κ ν} (hw : WF m) (hw' : WF m') (h : ∀ k, get? m k = get? m' k) : m = m' := by
  induction m generalizing m' with
  | nil =>
    cases m' with
    | nil => rfl
    | cons e m' =>
      have := h e.1
      simp [get?] at this
  | cons e m ih =>
    obtain ⟨k, v⟩ := e
    cases m' with
    | nil =>
      have := h k
      simp [get?] at this
    | cons e' m' =>
      obtain ⟨k', v'⟩ := e'
      have hk : k = k' := by
        rcases lt_trichotomy k k' with hlt | heq | hgt
        · have h1 := h k
          rw [get?_none_of_lt (m := (k', v') :: m')] at h1
          · simp [get?] at h1
          · intro x hx
            rcases List.mem_cons.1 hx with rfl | hx
            · exact hlt
            · exact lt_trans hlt (hw'.head_lt x hx)
        · exact heq
        · have h1 := h k'
          rw [get?_none_of_lt (m := (k, v) :: m)] at h1
          · simp [get?] at h1
          · intro x hx
            rcases List.mem_cons.1 hx with rfl | hx
            · exact hgt
            · exact lt_trans hgt (hw.head_lt x hx)
      subst hk
      have hv := h k
      simp [get?] at hv
      subst hv
      congr 1
      apply ih hw.tail hw'.tail
      intro j
      by_cases hj : j = k
      · subst hj
        rw [get?_none_of_lt hw.head_lt, get?_none_of_lt hw'.head_lt]
      · have := h j
        simpa [get?, hj] using this

/-- `keys()` in order. The keys of the maps at limit_order_book.rs 27-28. -/
def keys (m : SMap κ ν) : List κ := m.map Prod.fst

theorem keys_sorted {m : SMap κ ν} (hw : WF m) : (keys m).Pairwise (· < ·) :=
  List.pairwise_map.2 hw

end SMap
end Verif
