import Verif.Iso.MicTable

/-!
# A search tree over the market identifier table

A proof device only: it lets the kernel check a statement about all pairs of entries of the table in time linear in the
table. The statements themselves (Props.lean) are about the table.
-/

namespace Verif.Iso

/-- A binary tree whose nodes carry lists of entries. -/
inductive Tree (α : Type)
  | nil
  | node (b : List α) (l r : Tree α)

namespace Tree

variable {α : Type}

def insert (e : α) : List Bool → Tree α → Tree α
  | [], nil => node [e] nil nil
  | [], node b l r => node (e :: b) l r
  | false :: p, nil => node [] (insert e p nil) nil
  | false :: p, node b l r => node b (insert e p l) r
  | true :: p, nil => node [] nil (insert e p nil)
  | true :: p, node b l r => node b l (insert e p r)

def lookup : List Bool → Tree α → List α
  | _, nil => []
  | [], node b _ _ => b
  | false :: p, node _ l _ => lookup p l
  | true :: p, node _ _ r => lookup p r

theorem lookup_insert (e : α) : ∀ (p q : List Bool) (t : Tree α),
    lookup q (insert e p t) = if q = p then e :: lookup q t else lookup q t
  | [], q, t => by cases t <;> rcases q with _ | ⟨_ | _, q⟩ <;> simp [insert, lookup]
  | false :: p, q, t => by
    cases t <;> rcases q with _ | ⟨_ | _, q⟩ <;> simp [insert, lookup, lookup_insert e p]
  | true :: p, q, t => by
    cases t <;> rcases q with _ | ⟨_ | _, q⟩ <;> simp [insert, lookup, lookup_insert e p]

/-- The tree of a list of entries, each under the path of its key. -/
def build (path : α → List Bool) (t : Tree α) : List α → Tree α
  | [] => t
  | e :: es => build path (insert e (path e) t) es

theorem mem_lookup_build (path : α → List Bool) (q : List Bool) : ∀ (es : List α) (t : Tree α) (x : α),
    x ∈ lookup q (build path t es) ↔ (x ∈ es ∧ path x = q) ∨ x ∈ lookup q t
  | [], t, x => by simp [build]
  | e :: es, t, x => by
    rw [build, mem_lookup_build path q es, lookup_insert]
    by_cases h : q = path e
    · subst h
      simp only [if_true, List.mem_cons]
      constructor
      · rintro (⟨h1, h2⟩ | rfl | h3)
        · exact .inl ⟨.inr h1, h2⟩
        · exact .inl ⟨.inl rfl, rfl⟩
        · exact .inr h3
      · rintro (⟨rfl | h1, h2⟩ | h3)
        · exact .inr (.inl rfl)
        · exact .inl ⟨h1, h2⟩
        · exact .inr (.inr h3)
    · simp only [h, if_false, List.mem_cons]
      constructor
      · rintro (⟨h1, h2⟩ | h3)
        · exact .inl ⟨.inr h1, h2⟩
        · exact .inr h3
      · rintro (⟨rfl | h1, h2⟩ | h3)
        · exact absurd h2.symm h
        · exact .inl ⟨h1, h2⟩
        · exact .inr h3

end Tree

/-- The bits under which a code is filed. -/
def path (s : List Char) : List Bool :=
  let h := s.foldl (fun a c => a * 37 + c.toNat) 0
  (List.range 12).map h.testBit

/-- The market identifier table filed by Rust identifier. -/
def micIndex : Tree (List Char × MicChars) := Tree.build (fun e => path e.1) Tree.nil micChars

/-- Looking an identifier up in the tree finds only entries of the table. -/
theorem mem_micIndex (s : List Char) (x : List Char × MicChars) (h : x ∈ Tree.lookup (path s) micIndex) :
    x ∈ micChars := by
  rcases (Tree.mem_lookup_build _ _ _ _ _).1 h with h | h
  · exact h.1
  · simp [Tree.lookup] at h

/-- Looking an identifier up in the tree finds every entry with that identifier. -/
theorem mem_micIndex_self (x : List Char × MicChars) (h : x ∈ micChars) : x ∈ Tree.lookup (path x.1) micIndex :=
  (Tree.mem_lookup_build _ _ _ _ _).2 (.inl ⟨h, rfl⟩)

/-- Under the identifier of every entry the tree holds no other entry with that identifier, and the operating code of
every entry is that of an entry; if the entry has not expired, that of an operating entry that has not expired. -/
theorem index_check : (micChars.all fun e =>
    ((Tree.lookup (path e.1) micIndex).all fun r => !decide (r.1 = e.1) || decide (r.2 = e.2)) &&
    (Tree.lookup (path e.2.operatingMic) micIndex).any fun r => decide (r.1 = e.2.operatingMic) &&
      (decide (e.2.status = .Expired) ||
        (decide (r.2.oprtSgmt = .Operating) && !decide (r.2.status = .Expired)))) = true := by
  decide +kernel

end Verif.Iso
