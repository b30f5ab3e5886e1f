import Verif.Model.Collections
/-
C36 – C38: the collections package.
-/
namespace Traverse
variable {T : Type}

/-! ### C36 PositionalSet -/

section
variable [DecidableEq T]

/-- Operations on a positional set. -/
inductive PSet.Op (T : Type) where
  | insert (x : T)
  | all (xs : List T)
  | delete (x : T)
  | items
  | top

/-- Performing one operation. -/
def PSet.step (ps : PSet T) : PSet.Op T → PSet T
  | .insert x => (ps.insert x).1
  | .all xs => (ps.insertAll xs).1
  | .delete x => ps.delete x
  | .items => ps.list.1
  | .top => ps.top.1

/-- A set after a history of operations. -/
def PSet.after (order : List T) (anchor : T) (ops : List (PSet.Op T)) : PSet T :=
  ops.foldl PSet.step (PSet.new order anchor)

/-- Specification: was `x` inserted and not deleted since? -/
def PSet.live (ops : List (PSet.Op T)) (x : T) : Bool :=
  ops.foldl (fun b op => match op with
    | .insert y => b || decide (y = x)
    | .all ys => b || decide (x ∈ ys)
    | .delete y => b && !decide (y = x)
    | _ => b) false

/-- Specification: `x` is a member after the history `ops`. -/
def PSet.member (order : List T) (anchor : T) (ops : List (PSet.Op T)) (x : T) : Prop :=
  x = anchor ∨ (x ∈ order ∧ PSet.live ops x = true)

/-- What holds of a set at every moment. -/
structure PSet.Inv (order : List T) (anchor : T) (m : T → Bool) (ps : PSet T) : Prop where
  ord : ps.order = (uniqFrom [] order).filter (fun x => !decide (x = anchor)) ++ [anchor]
  anc : ps.anchor = anchor
  nodup : ps.items.Nodup
  mem : ∀ x, x ∈ ps.items ↔ x = anchor ∨ (x ∈ order ∧ m x = true)
  cache : ps.invalidated = false → ps.cache = ps.order.filter (fun x => decide (x ∈ ps.items))

theorem mem_uniqFrom (l : List T) : ∀ seen x, x ∈ uniqFrom seen l ↔ x ∈ l ∧ x ∉ seen := by
  induction l with
  | nil => simp [uniqFrom]
  | cons y ys ih =>
    intro seen x
    rw [uniqFrom]
    split
    · rename_i h
      rw [ih, List.mem_cons]
      constructor
      · intro ⟨a, b⟩; exact ⟨Or.inr a, b⟩
      · rintro ⟨rfl | a, b⟩
        · exact absurd h b
        · exact ⟨a, b⟩
    · rename_i h
      rw [List.mem_cons, ih, List.mem_cons, List.mem_cons]
      constructor
      · rintro (rfl | ⟨a, b⟩)
        · exact ⟨Or.inl rfl, h⟩
        · exact ⟨Or.inr a, fun hb => b (Or.inr hb)⟩
      · rintro ⟨rfl | a, b⟩
        · exact Or.inl rfl
        · by_cases he : x = y
          · exact Or.inl he
          · exact Or.inr ⟨a, fun hb => hb.elim he b⟩

theorem uniqFrom_nodup (l : List T) : ∀ seen, (uniqFrom seen l).Nodup := by
  induction l with
  | nil => simp [uniqFrom]
  | cons y ys ih =>
    intro seen
    rw [uniqFrom]
    split
    · exact ih _
    · rw [List.nodup_cons]
      refine ⟨?_, ih _⟩
      rw [mem_uniqFrom]
      simp

theorem uniqFrom_sublist (l : List T) : ∀ seen, (uniqFrom seen l).Sublist l := by
  induction l with
  | nil => simp [uniqFrom]
  | cons y ys ih =>
    intro seen
    rw [uniqFrom]
    split
    · exact (ih _).cons _
    · exact (ih _).cons_cons _

theorem PSet.Inv.mem_order {order : List T} {anchor : T} {m} {ps : PSet T} (h : PSet.Inv order anchor m ps) (x : T) :
    x ∈ ps.order ↔ x = anchor ∨ x ∈ order := by
  rw [h.ord]
  simp only [List.mem_append, List.mem_filter, mem_uniqFrom, List.mem_singleton, Bool.not_eq_true', decide_eq_false_iff_not,
    List.not_mem_nil, not_false_eq_true, and_true]
  constructor
  · rintro (⟨a, _⟩ | a)
    · exact Or.inr a
    · exact Or.inl a
  · rintro (a | a)
    · exact Or.inr a
    · by_cases he : x = anchor
      · exact Or.inr he
      · exact Or.inl ⟨a, he⟩

theorem PSet.Inv.insert {order : List T} {anchor : T} {m} {ps : PSet T} (h : PSet.Inv order anchor m ps) (x : T) :
    PSet.Inv order anchor (fun y => m y || decide (x = y)) (ps.insert x).1 ∧
    ((ps.insert x).2 = true ↔ x ∉ ps.items ∧ x ∈ ps.order) := by
  have hmo := h.mem_order x
  have hmx := h.mem x
  unfold PSet.insert
  rw [h.anc]
  have same : (x = anchor ∨ x ∉ ps.order ∨ x ∈ ps.items) → PSet.Inv order anchor (fun y => m y || decide (x = y)) ps := by
    intro hc
    refine ⟨h.ord, h.anc, h.nodup, ?_, h.cache⟩
    intro y
    rw [h.mem y]
    simp only [Bool.or_eq_true, decide_eq_true_eq]
    constructor
    · rintro (a | ⟨a, b⟩)
      · exact Or.inl a
      · exact Or.inr ⟨a, Or.inl b⟩
    · rintro (a | ⟨a, b | b⟩)
      · exact Or.inl a
      · exact Or.inr ⟨a, b⟩
      · subst b
        rcases hc with c | c | c
        · exact Or.inl c
        · exact absurd (hmo.2 (Or.inr a)) c
        · exact hmx.1 c
  split
  · rename_i ha
    refine ⟨same (Or.inl ha), ?_⟩
    simp [hmx.2 (Or.inl ha)]
  · rename_i ha
    split
    · rename_i ho
      split
      · rename_i hi
        exact ⟨same (Or.inr (Or.inr hi)), by simp [hi]⟩
      · rename_i hi
        refine ⟨⟨h.ord, rfl, ?_, ?_, ?_⟩, by simp [hi, ho]⟩
        · exact List.nodup_cons.2 ⟨hi, h.nodup⟩
        · intro y
          simp only [List.mem_cons, h.mem y, Bool.or_eq_true, decide_eq_true_eq]
          constructor
          · rintro (rfl | a | ⟨a, b⟩)
            · exact (hmo.1 ho).elim (fun e => Or.inl e) (fun e => Or.inr ⟨e, Or.inr rfl⟩)
            · exact Or.inl a
            · exact Or.inr ⟨a, Or.inl b⟩
          · rintro (a | ⟨a, b | b⟩)
            · exact Or.inr (Or.inl a)
            · exact Or.inr (Or.inr ⟨a, b⟩)
            · exact Or.inl b.symm
        · intro hh; simp at hh
    · rename_i ho
      exact ⟨same (Or.inr (Or.inl ho)), by simp [ho]⟩

theorem PSet.Inv.congr {order : List T} {anchor : T} {m m'} {ps : PSet T} (h : PSet.Inv order anchor m ps)
    (he : ∀ x, m x = m' x) : PSet.Inv order anchor m' ps :=
  ⟨h.ord, h.anc, h.nodup, fun x => by rw [h.mem, he], h.cache⟩

theorem PSet.Inv.insertAll {order : List T} {anchor : T} (xs : List T) : ∀ {m} {ps : PSet T},
    PSet.Inv order anchor m ps → PSet.Inv order anchor (fun y => m y || decide (y ∈ xs)) (ps.insertAll xs).1 := by
  induction xs with
  | nil => intro m ps h; simpa [PSet.insertAll] using h
  | cons x xs ih =>
    intro m ps h
    simp only [PSet.insertAll]
    refine (ih (h.insert x).1).congr ?_
    intro y
    have : decide (x = y) = decide (y = x) := by congr 1; exact propext ⟨Eq.symm, Eq.symm⟩
    simp [this, Bool.or_assoc]

theorem PSet.Inv.list {order : List T} {anchor : T} {m} {ps : PSet T} (h : PSet.Inv order anchor m ps) :
    PSet.Inv order anchor m ps.list.1 ∧ ps.list.2 = ps.order.filter (fun x => decide (x ∈ ps.items)) ∧
    ps.list.1.items = ps.items := by
  unfold PSet.list
  split
  · exact ⟨⟨h.ord, h.anc, h.nodup, h.mem, fun _ => rfl⟩, rfl, rfl⟩
  · rename_i hi
    exact ⟨h, h.cache (by simpa using hi), rfl⟩

theorem PSet.Inv.step {order : List T} {anchor : T} {m} {ps : PSet T} (h : PSet.Inv order anchor m ps) (op : PSet.Op T) :
    PSet.Inv order anchor (fun x => match op with
      | .insert y => m x || decide (y = x)
      | .all ys => m x || decide (x ∈ ys)
      | .delete y => m x && !decide (y = x)
      | _ => m x) (ps.step op) := by
  cases op with
  | insert x => exact (h.insert x).1
  | all xs => exact h.insertAll xs
  | items => exact h.list.1
  | top => exact h.list.1
  | delete x =>
    simp only [PSet.step, PSet.delete, h.anc]
    split
    · rename_i ha
      subst ha
      refine ⟨h.ord, h.anc, h.nodup, ?_, h.cache⟩
      intro y
      rw [h.mem y]
      simp only [Bool.and_eq_true, Bool.not_eq_true', decide_eq_false_iff_not]
      constructor
      · rintro (a | ⟨a, b⟩)
        · exact Or.inl a
        · by_cases he : x = y
          · exact Or.inl he.symm
          · exact Or.inr ⟨a, b, he⟩
      · rintro (a | ⟨a, b, _⟩)
        · exact Or.inl a
        · exact Or.inr ⟨a, b⟩
    · rename_i ha
      refine ⟨h.ord, rfl, h.nodup.filter _, ?_, fun hh => by simp at hh⟩
      intro y
      simp only [List.mem_filter, h.mem y, Bool.and_eq_true, Bool.not_eq_true', decide_eq_false_iff_not]
      constructor
      · rintro ⟨a | ⟨a, b⟩, c⟩
        · exact Or.inl a
        · exact Or.inr ⟨a, b, fun he => c he.symm⟩
      · rintro (a | ⟨a, b, c⟩)
        · subst a; exact ⟨Or.inl rfl, fun he => ha he.symm⟩
        · exact ⟨Or.inr ⟨a, b⟩, fun he => c he.symm⟩

theorem PSet.after_inv (order : List T) (anchor : T) (ops : List (PSet.Op T)) :
    PSet.Inv order anchor (PSet.live ops) (PSet.after order anchor ops) := by
  have gen : ∀ (ops : List (PSet.Op T)) (m : T → Bool) (ps : PSet T), PSet.Inv order anchor m ps →
      PSet.Inv order anchor (fun x => ops.foldl (fun b op => match op with
        | .insert y => b || decide (y = x)
        | .all ys => b || decide (x ∈ ys)
        | .delete y => b && !decide (y = x)
        | _ => b) (m x)) (ops.foldl PSet.step ps) := by
    intro ops
    induction ops with
    | nil => intro m ps h; exact h
    | cons op ops ih =>
      intro m ps h
      simp only [List.foldl_cons]
      exact (ih _ _ (h.step op)).congr (fun x => by cases op <;> rfl)
  refine gen ops (fun _ => false) (PSet.new order anchor) ⟨rfl, rfl, by simp [PSet.new], ?_, by simp [PSet.new]⟩
  intro x; simp [PSet.new]

/-- **C36** After any history, Items lists exactly the members, once each, the anchor last and the others in the
order of their first occurrence in the declared order; Count, Contains and Top agree with it. -/
theorem C36_positional_set (order : List T) (anchor : T) (ops : List (PSet.Op T)) :
    let ps := PSet.after order anchor ops
    let L := ps.list.2
    (∀ x, x ∈ L ↔ PSet.member order anchor ops x) ∧ L.Nodup ∧
    (∃ l, L = l ++ [anchor] ∧ l.Sublist order) ∧
    ps.count = L.length ∧ (∀ x, ps.contains x = true ↔ x ∈ L) ∧ ps.top.2 = L.head? ∧ L ≠ [] := by
  intro ps L
  have h := PSet.after_inv order anchor ops
  have hL : L = ps.order.filter (fun x => decide (x ∈ ps.items)) := h.list.2.1
  have hmem : ∀ x, x ∈ L ↔ x ∈ ps.items := by
    intro x
    rw [hL, List.mem_filter, decide_eq_true_eq]
    refine ⟨fun hx => hx.2, fun hx => ⟨?_, hx⟩⟩
    rw [h.mem_order]
    exact ((h.mem x).1 hx).imp id And.left
  have hond : ps.order.Nodup := by
    rw [h.ord]
    refine List.nodup_append.2 ⟨(uniqFrom_nodup _ _).filter _, by simp, ?_⟩
    intro a ha b hb
    simp only [List.mem_singleton] at hb
    subst hb
    have := (List.mem_filter.1 ha).2
    simpa using this
  have hnd : L.Nodup := by rw [hL]; exact hond.filter _
  have hperm : L.Perm ps.items := (List.perm_ext_iff_of_nodup hnd h.nodup).2 hmem
  have hanchor : anchor ∈ ps.items := (h.mem anchor).2 (Or.inl rfl)
  have hsplit : ∃ l, L = l ++ [anchor] ∧ l.Sublist order := by
    rw [hL, h.ord, List.filter_append]
    refine ⟨((uniqFrom [] order).filter (fun x => !decide (x = anchor))).filter (fun x => decide (x ∈ ps.items)), ?_, ?_⟩
    · congr 1
      simp [hanchor]
    · exact (List.filter_sublist.trans List.filter_sublist).trans (uniqFrom_sublist _ _)
  refine ⟨fun x => (hmem x).trans (h.mem x), hnd, hsplit, hperm.length_eq.symm, ?_, rfl, ?_⟩
  · intro x; rw [hmem]; simp [PSet.contains, ps]
  · obtain ⟨l, hl, _⟩ := hsplit
    rw [hl]; simp

/-- **C36** Insert reports true exactly when the set grew (by that item); Delete removes that item only, never the
anchor. -/
theorem C36_insert_delete (order : List T) (anchor : T) (ops : List (PSet.Op T)) (x : T) :
    let ps := PSet.after order anchor ops
    ((ps.insert x).2 = true ↔ (ps.insert x).1.count = ps.count + 1) ∧
    ((ps.insert x).2 = false ↔ (ps.insert x).1.list.2 = ps.list.2) ∧
    ((ps.insert x).2 = true → ∀ y, y ∈ (ps.insert x).1.list.2 ↔ y = x ∨ y ∈ ps.list.2) ∧
    (∀ y, y ∈ (ps.delete x).list.2 ↔ y ∈ ps.list.2 ∧ (y ≠ x ∨ y = anchor)) := by
  intro ps
  have h := PSet.after_inv order anchor ops
  have h1 := C36_positional_set order anchor ops
  have h2 := C36_positional_set order anchor (ops ++ [.insert x])
  have h3 := C36_positional_set order anchor (ops ++ [.delete x])
  have e2 : PSet.after order anchor (ops ++ [.insert x]) = (ps.insert x).1 := by
    simp [PSet.after, PSet.step, ps]
  have e3 : PSet.after order anchor (ops ++ [.delete x]) = ps.delete x := by
    simp [PSet.after, PSet.step, ps]
  have hins := (h.insert x).2
  have hcase : ((ps.insert x).2 = false ∧ (ps.insert x).1 = ps) ∨
      ((ps.insert x).2 = true ∧ (ps.insert x).1.items = x :: ps.items) := by
    unfold PSet.insert
    split
    · exact Or.inl ⟨rfl, rfl⟩
    · split
      · split
        · exact Or.inl ⟨rfl, rfl⟩
        · exact Or.inr ⟨rfl, rfl⟩
      · exact Or.inl ⟨rfl, rfl⟩
  rw [e2] at h2
  rw [e3] at h3
  have m1 : ∀ y, y ∈ ps.list.2 ↔ y ∈ ps.items := fun y => (h1.1 y).trans (h.mem y).symm
  refine ⟨?_, ?_, ?_, ?_⟩
  · rcases hcase with ⟨a, b⟩ | ⟨a, b⟩
    · rw [a, b]; simp
    · rw [a]; simp [PSet.count, b]
  · rcases hcase with ⟨a, b⟩ | ⟨a, b⟩
    · rw [a, b]; simp
    · rw [a]
      simp only [Bool.true_eq_false, false_iff]
      intro he
      have hx : x ∈ (ps.insert x).1.list.2 := by
        rw [h2.1 x]
        have := (h.insert x).1.mem x
        rw [b] at this
        have := this.1 (by simp)
        simpa [PSet.member, PSet.live] using this
      rw [he, m1] at hx
      exact (hins.1 a).1 hx
  · intro ht y
    rcases hcase with ⟨a, b⟩ | ⟨a, b⟩
    · rw [a] at ht; simp at ht
    · have hi : y ∈ (ps.insert x).1.list.2 ↔ y ∈ (ps.insert x).1.items := by
        have hh := PSet.after_inv order anchor (ops ++ [.insert x])
        rw [e2] at hh
        exact (h2.1 y).trans (hh.mem y).symm
      rw [hi, b, m1]; simp
  · intro y
    rw [h3.1 y, h1.1 y]
    simp only [PSet.member, PSet.live, List.foldl_append, List.foldl_cons, List.foldl_nil, Bool.and_eq_true,
      Bool.not_eq_true', decide_eq_false_iff_not]
    constructor
    · rintro (a | ⟨a, b, c⟩)
      · exact ⟨Or.inl a, Or.inr a⟩
      · exact ⟨Or.inr ⟨a, b⟩, Or.inl (fun he => c he.symm)⟩
    · rintro ⟨a | ⟨a, b⟩, c⟩
      · exact Or.inl a
      · rcases c with c | c
        · exact Or.inr ⟨a, b, fun he => c he.symm⟩
        · exact Or.inl c

/-- **C36** All reports true exactly when every item it was given has been added: the set has grown by their number (so also when it
was given none). It is Insert item by item. -/
theorem C36_all (order : List T) (anchor : T) (ops : List (PSet.Op T)) (xs : List T) :
    let ps := PSet.after order anchor ops
    ((ps.insertAll xs).2 = true ↔ (ps.insertAll xs).1.count = ps.count + xs.length) ∧
    (ps.insertAll xs).1 = xs.foldl (fun ps x => (ps.insert x).1) ps := by
  intro ps
  have hcase : ∀ (ps : PSet T) x, ((ps.insert x).2 = false ∧ (ps.insert x).1 = ps) ∨
      ((ps.insert x).2 = true ∧ (ps.insert x).1.items = x :: ps.items) := by
    intro ps x
    unfold PSet.insert
    split
    · exact Or.inl ⟨rfl, rfl⟩
    · split
      · split
        · exact Or.inl ⟨rfl, rfl⟩
        · exact Or.inr ⟨rfl, rfl⟩
      · exact Or.inl ⟨rfl, rfl⟩
  have gen : ∀ (xs : List T) (ps : PSet T), (ps.insertAll xs).1.count ≤ ps.count + xs.length ∧
      ((ps.insertAll xs).2 = true ↔ (ps.insertAll xs).1.count = ps.count + xs.length) ∧
      (ps.insertAll xs).1 = xs.foldl (fun ps x => (ps.insert x).1) ps := by
    intro xs
    induction xs with
    | nil => intro ps; simp [PSet.insertAll]
    | cons x xs ih =>
      intro ps
      obtain ⟨a, b, c⟩ := ih (ps.insert x).1
      simp only [PSet.insertAll, List.length_cons, List.foldl_cons, Bool.and_eq_true, b]
      refine ⟨?_, ?_, c⟩
      · rcases hcase ps x with ⟨h1, h2⟩ | ⟨h1, h2⟩
        · rw [h2] at a ⊢; omega
        · have : (ps.insert x).1.count = ps.count + 1 := by simp [PSet.count, h2]
          omega
      · rcases hcase ps x with ⟨h1, h2⟩ | ⟨h1, h2⟩
        · rw [h1]
          rw [h2] at a ⊢
          simp; omega
        · have : (ps.insert x).1.count = ps.count + 1 := by simp [PSet.count, h2]
          rw [h1]
          simp; omega
  exact (gen xs ps).2

/-- **C36** Position is monotone along Items: members are listed by increasing position. -/
theorem C36_position (order : List T) (anchor : T) (ops : List (PSet.Op T)) (x y : T)
    (h : [x, y].Sublist (PSet.after order anchor ops).list.2) :
    ∃ i j, (PSet.after order anchor ops).position x = some i ∧ (PSet.after order anchor ops).position y = some j ∧ i < j := by
  have hi := PSet.after_inv order anchor ops
  have hL := hi.list.2.1
  generalize PSet.after order anchor ops = ps at *
  have hond : ps.order.Nodup := by
    rw [hi.ord]
    refine List.nodup_append.2 ⟨(uniqFrom_nodup _ _).filter _, by simp, ?_⟩
    intro a ha b hb
    simp only [List.mem_singleton] at hb
    subst hb
    have := (List.mem_filter.1 ha).2
    simpa using this
  have hs : [x, y].Sublist ps.order := by rw [hL] at h; exact h.trans List.filter_sublist
  simp only [PSet.position]
  generalize ps.order = l at *
  clear h hL hi
  induction l with
  | nil => simp at hs
  | cons z zs ih =>
    rw [List.nodup_cons] at hond
    simp only [List.idxOf?_cons]
    rcases hs with _ | hs
    · rename_i hs
      obtain ⟨i, j, h1, h2, h3⟩ := ih hond.2 hs
      have hx : x ∈ zs := hs.subset (by simp)
      have hy : y ∈ zs := hs.subset (by simp)
      have nx : ¬ z = x := fun e => hond.1 (e ▸ hx)
      have ny : ¬ z = y := fun e => hond.1 (e ▸ hy)
      refine ⟨i + 1, j + 1, by simp [nx, h1], by simp [ny, h2], by omega⟩
    · rename_i hs
      have hy : y ∈ zs := List.singleton_sublist.1 hs
      have ny : ¬ x = y := fun e => hond.1 (e ▸ hy)
      obtain ⟨j, hj⟩ : ∃ j, zs.idxOf? y = some j := by
        cases h : zs.idxOf? y with
        | some j => exact ⟨j, rfl⟩
        | none => exact absurd hy (by simpa using h)
      exact ⟨0, j + 1, by simp, by simp [ny, hj], by omega⟩

example : ((PSet.after [3, 1, 9, 3, 5] 9 [.insert 5, .items, .insert 1, .insert 7, .insert 3, .delete 1, .delete 9, .insert 3]).list.2 :
    List Nat) = [3, 5, 9] := by decide
example : let ps := PSet.after [3, 1, 9, 3, 5] 9 [.insert 5]
    (ps.insertAll [1, 3]).2 = true ∧ (ps.insertAll [1, 5, 3]).2 = false ∧ (ps.insertAll [1, 5, 3]).1.count = 4 ∧ (ps.insertAll [9]).2 = false := by
  decide

end

/-! ### C37 Stack -/

inductive Stk.Op (T : Type) where
  | push (x : T)
  | pop
  | mustPop
  | current
  | size
  | isEmpty

/-- What a stack operation answers. -/
inductive Stk.Obs (T : Type) where
  | done
  | item (x : T)
  | emptyError
  | panic
  | num (n : Nat)
  | flag (b : Bool)
  deriving DecidableEq, Repr

/-- One operation of the program. MustPop (stack.go:39-45) panics on an empty stack. -/
def Stk.step {T} (s : Stk T) : Stk.Op T → Stk T × Stk.Obs T
  | .push x => (s.push x, .done)
  | .pop => (s.pop.1, match s.pop.2 with | some x => .item x | none => .emptyError)
  | .mustPop => if s.isEmpty then (s, .panic) else (s.pop.1, match s.pop.2 with | some x => .item x | none => .panic)
  | .current => (s, match s.current with | some x => .item x | none => .emptyError)
  | .size => (s, .num s.size)
  | .isEmpty => (s, .flag s.isEmpty)

def Stk.run {T} : Stk T → List (Stk.Op T) → List (Stk.Obs T)
  | _, [] => []
  | s, op :: ops => (s.step op).2 :: (s.step op).1.run ops

/-- Reference: a stack is a list with the most recent item first. -/
def lifo {T} : List T → List (Stk.Op T) → List (Stk.Obs T)
  | _, [] => []
  | l, .push x :: ops => .done :: lifo (x :: l) ops
  | [], .pop :: ops => .emptyError :: lifo [] ops
  | x :: l, .pop :: ops => .item x :: lifo l ops
  | [], .mustPop :: ops => .panic :: lifo [] ops
  | x :: l, .mustPop :: ops => .item x :: lifo l ops
  | [], .current :: ops => .emptyError :: lifo [] ops
  | x :: l, .current :: ops => .item x :: lifo (x :: l) ops
  | l, .size :: ops => .num l.length :: lifo l ops
  | l, .isEmpty :: ops => .flag (l.length == 0) :: lifo l ops

/-- **C37** Every sequence of operations answers as a LIFO stack does, from every starting content. -/
theorem C37_stack {T} (ops : List (Stk.Op T)) : ∀ content : List T,
    Stk.run ⟨content⟩ ops = lifo content.reverse ops := by
  induction ops with
  | nil => intro c; simp [Stk.run, lifo]
  | cons op ops ih =>
    intro c
    rcases List.eq_nil_or_concat c with rfl | ⟨d, x, rfl⟩
    · cases op <;> simp [Stk.run, Stk.step, Stk.push, Stk.pop, Stk.current, Stk.size, Stk.isEmpty, lifo, ih]
    · have hgl : (d.concat x).getLast? = some x := by simp
      cases op <;> simp [Stk.run, Stk.step, Stk.push, Stk.pop, Stk.current, Stk.size, Stk.isEmpty, lifo, ih]

example : Stk.run ⟨[1]⟩ [.push 2, .pop, .push 3, .current, .size, .pop, .pop, .pop, .mustPop, .isEmpty] =
    [.done, .item 2, .done, .item 3, .num 2, .item 3, .item 1, .emptyError, .panic, .flag true] := by decide

/-! ### C38 Iterators -/

/-- The elements in the order of the iterator's direction. -/
def inOrder (fwd : Bool) (l : List T) : List T := if fwd then l else l.reverse

/-- Specification of RunAll on the list of elements still to come: process each, stop after the first whose
verdict is false. -/
def processed {τ R : Type} (each : τ → T → τ × R) (whl : τ → T → R → τ × Bool) : List T → τ → List T × τ
  | [], t => ([], t)
  | x :: xs, t =>
    let r := each t x
    let w := whl r.1 x r.2
    if w.2 then let p := processed each whl xs w.1; (x :: p.1, p.2) else ([x], w.1)

/-- The iterator stands in front of `rest` having just handed out `e`. -/
structure It.Stands (i : It T) (e : T) (rest : List T) : Prop where
  /-- `rest` is what `inOrder` has left -/
  pos : ∃ pre, inOrder i.fwd i.container = pre ++ e :: rest ∧
    i.current = if i.fwd then (pre.length : Int) else (i.container.length : Int) - 1 - pre.length

theorem It.Stands.valid {i : It T} {e rest} (h : i.Stands e rest) : i.valid = true ∧ i.at = e := by
  obtain ⟨pre, h1, h2⟩ := h.pos
  have hlen : i.container.length = pre.length + rest.length + 1 := by
    have := congrArg List.length h1
    simp only [inOrder] at this
    split at this <;> simp at this <;> omega
  cases hf : i.fwd with
  | true =>
    simp only [hf, if_true] at h2
    refine ⟨by simp [It.valid, h2, hlen]; omega, ?_⟩
    simp only [inOrder, hf, if_true] at h1
    simp [It.at, h2, h1]
  | false =>
    simp only [hf, Bool.false_eq_true, if_false] at h2
    simp only [inOrder, hf, Bool.false_eq_true, if_false] at h1
    refine ⟨by simp [It.valid, h2, hlen]; omega, ?_⟩
    have hc : i.container = rest.reverse ++ e :: pre.reverse := by
      have := congrArg List.reverse h1
      simpa using this
    have ht : i.current.toNat = rest.reverse.length := by rw [List.length_reverse]; omega
    unfold It.at
    rw [ht, hc]
    simp [List.getD]

/-- Past the end: no element is handed out any more. -/
def It.Over (i : It T) : Prop :=
  if i.fwd then (i.container.length : Int) ≤ i.current else i.current < 0

theorem It.Over.valid {i : It T} (h : i.Over) : i.valid = false := by
  unfold It.Over at h
  unfold It.valid
  split at h
  · have : ¬ i.current < i.container.length := by omega
    simp [this]
  · have : ¬ 0 ≤ i.current := by omega
    simp [this]

theorem It.Over.next {i : It T} (h : i.Over) : i.next.1.Over ∧ i.next.2 = i.zero := by
  have ho : i.next.1.Over := by
    unfold It.Over It.next at *
    cases hf : i.fwd <;> simp [hf] at h ⊢ <;> omega
  refine ⟨ho, ?_⟩
  have hv := ho.valid
  unfold It.next at hv ⊢
  simp only at hv ⊢
  rw [hv]; rfl

theorem It.Stands.next {i : It T} {e rest} (h : i.Stands e rest) :
    (∀ x xs, rest = x :: xs → i.next.1.Stands x xs ∧ i.next.2 = x) ∧
    (rest = [] → i.next.1.Over ∧ i.next.2 = i.zero) := by
  obtain ⟨pre, h1, h2⟩ := h.pos
  have hlen : i.container.length = pre.length + rest.length + 1 := by
    have := congrArg List.length h1
    simp only [inOrder] at this
    split at this <;> simp at this <;> omega
  constructor
  · rintro x xs rfl
    have hs : i.next.1.Stands x xs := by
      refine ⟨pre ++ [e], ?_, ?_⟩
      · simp only [It.next, List.append_assoc, List.singleton_append]; exact h1
      · simp only [It.next, h2]
        split <;> simp <;> omega
    refine ⟨hs, ?_⟩
    have := hs.valid
    unfold It.next at this ⊢
    simp only at this ⊢
    rw [this.1, this.2]; rfl
  · rintro rfl
    have ho : i.next.1.Over := by
      unfold It.Over It.next
      simp only [h2]
      simp at hlen
      cases hf : i.fwd <;> simp <;> omega
    refine ⟨ho, ?_⟩
    have hv := ho.valid
    unfold It.next at hv ⊢
    simp only at hv ⊢
    rw [hv]; rfl

theorem It.start_spec (i : It T) :
    (∀ x xs, inOrder i.fwd i.container = x :: xs → i.start.1.Stands x xs ∧ i.start.2 = x) ∧
    (i.container = [] → i.start = (i, i.zero)) := by
  constructor
  · intro x xs hx
    have hne : ¬ i.container.length = 0 := by
      intro h0
      have : i.container = [] := by simpa using h0
      rw [this] at hx
      simp only [inOrder] at hx
      split at hx <;> simp at hx
    have hs : i.start.1.Stands x xs := by
      refine ⟨[], ?_, ?_⟩
      · simp only [It.start, hne, if_false, List.nil_append]; exact hx
      · simp only [It.start, hne, if_false]
        split <;> simp
    refine ⟨hs, ?_⟩
    have := hs.valid.2
    simp only [It.start, hne, if_false] at this ⊢
    exact this
  · intro h
    simp [It.start, h]

/-- An iterator as the constructor or Reset leaves it. -/
def It.Fresh (i : It T) : Prop := i.current = if i.fwd then -1 else (i.container.length : Int)

theorem It.loop_iff {τ R : Type} (each : τ → T → τ × R) (whl : τ → T → R → τ × Bool) (rest : List T) :
    ∀ (i : It T) (e : T) (t : τ), i.Stands e rest → ∀ es t', (∃ i', It.Loop each whl i e t es i' t') ↔
      processed each whl (e :: rest) t = (es, t') := by
  induction rest with
  | nil =>
    intro i e t hs es t'
    have hv := hs.valid.1
    have hn := (hs.next.2 rfl).1.valid
    simp only [processed]
    constructor
    · rintro ⟨i', hl⟩
      cases hl with
      | stop h => rw [hv] at h; simp at h
      | brk h hw => simp [hw]
      | go h hw hr =>
        simp only [hw, if_true]
        cases hr with
        | stop h => rfl
        | brk h => rw [hn] at h; simp at h
        | go h => rw [hn] at h; simp at h
    · intro h
      cases hw : (whl (each t e).1 e (each t e).2).2 with
      | true =>
        simp only [hw, if_true, Prod.mk.injEq] at h
        obtain ⟨rfl, rfl⟩ := h
        exact ⟨_, .go hv hw (.stop hn)⟩
      | false =>
        simp only [hw, Bool.false_eq_true, if_false, Prod.mk.injEq] at h
        obtain ⟨rfl, rfl⟩ := h
        exact ⟨_, .brk hv hw⟩
  | cons x xs ih =>
    intro i e t hs es t'
    have hv := hs.valid.1
    obtain ⟨hn, hx⟩ := hs.next.1 x xs rfl
    rw [processed]
    constructor
    · rintro ⟨i', hl⟩
      cases hl with
      | stop h => rw [hv] at h; simp at h
      | brk h hw => simp [hw]
      | go h hw hr =>
        rw [hx] at hr
        have := (ih _ x _ hn _ _).1 ⟨_, hr⟩
        simp only [hw, if_true, this]
    · intro h
      cases hw : (whl (each t e).1 e (each t e).2).2 with
      | true =>
        simp only [hw, if_true, Prod.mk.injEq] at h
        obtain ⟨rfl, h2⟩ := h
        obtain ⟨i', hl⟩ := (ih _ x (whl (each t e).1 e (each t e).2).1 hn _ _).2 rfl
        refine ⟨i', .go hv hw ?_⟩
        rw [hx]
        rw [← h2]; exact hl
      | false =>
        simp only [hw, Bool.false_eq_true, if_false, Prod.mk.injEq] at h
        obtain ⟨rfl, rfl⟩ := h
        exact ⟨_, .brk hv hw⟩

/-- **C38** RunAll on a new (or reset) iterator: it terminates, processes the elements in the iterator's order up to
and including the first one for which the while function answers false, and calls each/while exactly for those. -/
theorem C38_runAll {τ R : Type} (each : τ → T → τ × R) (whl : τ → T → R → τ × Bool) (i : It T) (hi : i.Fresh)
    (t : τ) (es : List T) (t' : τ) :
    (∃ i', It.RunAll each whl i t es i' t') ↔ processed each whl (inOrder i.fwd i.container) t = (es, t') := by
  unfold It.RunAll
  cases hl : inOrder i.fwd i.container with
  | nil =>
    have hc : i.container = [] := by
      simp only [inOrder] at hl; split at hl
      · exact hl
      · simpa using hl
    rw [i.start_spec.2 hc]
    have hv : i.valid = false := by
      unfold It.Fresh at hi
      unfold It.valid
      rw [hi, hc]
      split <;> simp
    simp only [processed]
    constructor
    · rintro ⟨i', hl⟩
      cases hl with
      | stop h => rfl
      | brk h => rw [hv] at h; simp at h
      | go h => rw [hv] at h; simp at h
    · intro h
      simp only [Prod.mk.injEq] at h
      obtain ⟨rfl, rfl⟩ := h
      exact ⟨i, .stop hv⟩
  | cons x xs =>
    obtain ⟨h1, h2⟩ := i.start_spec.1 x xs hl
    rw [h2]
    exact It.loop_iff each whl xs _ x t h1 es t'

/-- **C38** A constructed or reset iterator is fresh, whatever was done with it before. -/
theorem C38_reset (i : It T) (l : List T) (z : T) (fwd : Bool) :
    (It.new fwd l z).Fresh ∧ (i.reset l).Fresh ∧ i.reset l = It.new i.fwd l i.zero := by
  refine ⟨rfl, rfl, rfl⟩

/-- What Start followed by `n` calls of Next hand out, each with the Valid flag after it. -/
def It.pull (i : It T) : Nat → List (T × Bool)
  | 0 => []
  | n + 1 => (i.next.2, i.next.1.valid) :: i.next.1.pull n
def It.handOut (i : It T) (n : Nat) : List (T × Bool) :=
  (i.start.2, i.start.1.valid) :: i.start.1.pull n

theorem It.pull_over {i : It T} (n : Nat) (h : i.Over) : i.pull n = List.replicate n (i.zero, false) := by
  induction n generalizing i with
  | zero => rfl
  | succ n ih =>
    obtain ⟨h1, h2⟩ := h.next
    have hz : i.next.1.zero = i.zero := rfl
    rw [It.pull, ih h1, h2, h1.valid, hz]; rfl

theorem It.pull_stands (rest : List T) : ∀ {i : It T} {e} (n : Nat), i.Stands e rest →
    i.pull n = ((rest.map fun x => (x, true)) ++ List.replicate n (i.zero, false)).take n := by
  induction rest with
  | nil =>
    intro i e n h
    cases n with
    | zero => rfl
    | succ n =>
      obtain ⟨h1, h2⟩ := h.next.2 rfl
      have hz : i.next.1.zero = i.zero := rfl
      rw [It.pull, It.pull_over n h1, h2, h1.valid, hz]
      simp [List.replicate_succ]
  | cons x xs ih =>
    intro i e n h
    cases n with
    | zero => rfl
    | succ n =>
      obtain ⟨h1, h2⟩ := h.next.1 x xs rfl
      have hz : i.next.1.zero = i.zero := rfl
      rw [It.pull, ih n h1, h2, h1.valid.1, hz]
      simp only [List.map_cons, List.cons_append, List.take_succ_cons, List.cons.injEq, true_and]
      simp [List.take_append, List.take_replicate]
      omega

theorem It.pull_empty {i : It T} (n : Nat) (h : i.container = []) : i.pull n = List.replicate n (i.zero, false) := by
  induction n generalizing i with
  | zero => rfl
  | succ n ih =>
    have hv : i.next.1.valid = false := by
      simp only [It.next, It.valid, h, List.length_nil]
      by_cases hh : 0 ≤ (if i.fwd = true then i.current + 1 else i.current - 1)
      · have : ¬ (if i.fwd = true then i.current + 1 else i.current - 1) < ((0 : Nat) : Int) := by omega
        simp only [this, decide_false, Bool.and_false]
      · simp only [hh, decide_false, Bool.false_and]
    have hz : i.next.2 = i.zero := by
      unfold It.next at hv ⊢
      simp only at hv ⊢
      rw [hv]; rfl
    have hz' : i.next.1.zero = i.zero := rfl
    rw [It.pull, ih (show i.next.1.container = [] from h), hz, hv, hz']; rfl

/-- **C38** From Start on, the iterator hands out every element exactly once, in its order, each flagged valid, and
from then on only the zero value, flagged invalid. -/
theorem C38_elements (i : It T) (hi : i.Fresh) (n : Nat) :
    i.handOut n =
      (((inOrder i.fwd i.container).map fun x => (x, true)) ++ List.replicate (n + 1) (i.zero, false)).take (n + 1) := by
  cases hl : inOrder i.fwd i.container with
  | nil =>
    have hc : i.container = [] := by
      simp only [inOrder] at hl; split at hl
      · exact hl
      · simpa using hl
    have hv : i.valid = false := by
      unfold It.Fresh at hi
      unfold It.valid
      rw [hi, hc]
      split <;> simp
    rw [It.handOut, i.start_spec.2 hc, It.pull_empty n hc, hv]
    simp [List.replicate_succ]
  | cons x xs =>
    obtain ⟨h1, h2⟩ := i.start_spec.1 x xs hl
    have hz : i.start.1.zero = i.zero := by unfold It.start; split <;> rfl
    rw [It.handOut, h2, h1.valid.1, It.pull_stands xs n h1, hz]
    simp only [List.map_cons, List.cons_append, List.take_succ_cons, List.cons.injEq, true_and]
    simp [List.take_append, List.take_replicate]
    omega

example : (It.new true [1, 2, 3] 0).handOut 4 = [(1, true), (2, true), (3, true), (0, false), (0, false)] ∧
    (It.new false [1, 2, 3] 0).handOut 4 = [(3, true), (2, true), (1, true), (0, false), (0, false)] := by decide
example : processed (fun (t : List Nat) x => (t ++ [x], x)) (fun t _ r => (t, decide (r ≠ 2))) [1, 2, 3] [] =
    ([1, 2], [1, 2]) := by decide

end Traverse
