import Verif.Model.Lo
/-
The helpers of internal/third/lo do what the list functions the model is written with do. These are not properties of their own:
they take the package out of what has to be trusted.
-/
namespace Traverse.Lo
variable {α β ρ υ : Type}

theorem range_ok (body : β → α → Nat → β) (l : List α) (i : Nat) (b : β) :
    range (ρ := ρ) (fun b x i => .ok (body b x i)) l i b = .ok ((l.zipIdx i).foldl (fun b p => body b p.1 p.2) b) := by
  induction l generalizing i b with
  | nil => rfl
  | cons x xs ih => simp [range, ih, List.zipIdx_cons]

theorem rangeAll_eq (body : β → α → Nat → β) (l : List α) (b : β) :
    rangeAll body l b = (l.zipIdx).foldl (fun b p => body b p.1 p.2) b := by
  simp [rangeAll, range_ok]

/-- Without indices. -/
theorem rangeAll_plain (body : β → α → β) (l : List α) (b : β) : rangeAll (fun b x _ => body b x) l b = l.foldl body b := by
  rw [rangeAll_eq]
  generalize (0 : Nat) = i
  induction l generalizing b i with
  | nil => rfl
  | cons x xs ih => simp [List.zipIdx_cons, ih]

theorem ternary_eq (c : Bool) (a b : α) : ternary c a b = bif c then a else b := by cases c <;> rfl
theorem ternaryF_eq (c : Bool) (a b : Unit → α) : ternaryF c a b = bif c then a () else b () := by cases c <;> rfl

theorem filter_eq (l : List α) (p : α → Nat → Bool) :
    filter l p = ((l.zipIdx).filter (fun q => p q.1 q.2)).map Prod.fst := by
  rw [filter, rangeAll_eq]
  generalize l.zipIdx = m
  have : ∀ acc : List α, m.foldl (fun b q => if p q.1 q.2 then b ++ [q.1] else b) acc =
      acc ++ (m.filter (fun q => p q.1 q.2)).map Prod.fst := by
    induction m with
    | nil => simp
    | cons q m ih =>
      intro acc
      simp only [List.foldl_cons, List.filter_cons]
      rw [ih]
      split <;> simp
  simpa using this []

theorem filter_plain (l : List α) (p : α → Bool) : filter l (fun x _ => p x) = l.filter p := by
  rw [filter_eq]
  generalize (0 : Nat) = i
  induction l generalizing i with
  | nil => rfl
  | cons x xs ih => simp only [List.zipIdx_cons, List.filter_cons]; split <;> simp [ih]

theorem reject_plain (l : List α) (p : α → Bool) : reject l (fun x _ => p x) = l.filter (fun x => !p x) := by
  have : reject l (fun x _ => p x) = filter l (fun x _ => !p x) := rfl
  rw [this, filter_plain]

theorem set_loop (g : α → Nat → β) (d : β) (l : List α) (pre : List β) (i : Nat) (hi : i = pre.length) :
    ((l.zipIdx i).foldl (fun b (p : α × Nat) => b.set p.2 (g p.1 p.2)) (pre ++ List.replicate l.length d)) =
      pre ++ (l.zipIdx i).map (fun p => g p.1 p.2) := by
  induction l generalizing pre i with
  | nil => simp
  | cons x xs ih =>
    subst hi
    simp only [List.zipIdx_cons, List.foldl_cons, List.length_cons, List.replicate_succ, List.map_cons]
    have h1 : (pre ++ d :: List.replicate xs.length d).set pre.length (g x pre.length) =
        (pre ++ [g x pre.length]) ++ List.replicate xs.length d := by
      rw [List.set_append_right _ _ (Nat.le_refl _)]; simp
    rw [h1, ih (pre ++ [g x pre.length]) (pre.length + 1) (by simp)]
    simp

theorem map_eq [Inhabited β] (l : List α) (f : α → Nat → β) : map l f = (l.zipIdx).map (fun p => f p.1 p.2) := by
  rw [map, rangeAll_eq]
  exact set_loop f default l [] 0 rfl

theorem map_plain [Inhabited β] (l : List α) (f : α → β) : map l (fun x _ => f x) = l.map f := by
  rw [map_eq]
  generalize (0 : Nat) = i
  induction l generalizing i with
  | nil => rfl
  | cons x xs ih => simp [List.zipIdx_cons, ih]

/-- MapE as the callers use it: all the results, or the first error. -/
theorem mapE_plain [Inhabited β] {ε : Type} (l : List α) (f : α → Except ε β) :
    (let r := mapE l (fun x _ => match f x with | .ok v => (v, none) | .error e => (default, some e));
     match r.2 with | none => .ok r.1 | some e => .error e) = l.mapM f := by
  have key : ∀ (l : List α) (pre : List β) (i : Nat), i = pre.length →
      (match range (ρ := List β × Option ε) (fun result item i =>
        match (match f item with | .ok v => (v, none) | .error e => (default, some e) : β × Option ε) with
        | (v, some e) => .error (result.set i v, some e)
        | (v, none) => .ok (result.set i v)) l i (pre ++ List.replicate l.length default) with
      | .ok result => (.ok result : Except ε (List β))
      | .error r => match r.2 with | none => .ok r.1 | some e => .error e) =
      (match l.mapM f with | .ok ys => .ok (pre ++ ys) | .error e => .error e) := by
    intro l
    induction l with
    | nil => intro pre i hi; simp [range, pure, Except.pure]
    | cons x xs ih =>
      intro pre i hi
      subst hi
      simp only [range, List.mapM_cons, bind, Except.bind, pure, Except.pure]
      cases hx : f x with
      | error e => simp
      | ok v =>
        simp only
        have h1 : (pre ++ List.replicate (xs.length + 1) default).set pre.length v = (pre ++ [v]) ++ List.replicate xs.length default := by
          rw [List.set_append_right _ _ (Nat.le_refl _)]; simp [List.replicate_succ]
        rw [List.length_cons, h1, ih (pre ++ [v]) (pre.length + 1) (by simp)]
        cases xs.mapM f <;> simp
  have h := key l [] 0 rfl
  simp only [List.nil_append] at h
  have hr : (match l.mapM f with | .ok ys => (.ok ys : Except ε (List β)) | .error e => .error e) = l.mapM f := by
    cases l.mapM f <;> rfl
  rw [hr] at h
  rw [← h]
  simp only [mapE]
  generalize range _ l 0 _ = r
  cases r <;> rfl

theorem reduce_plain (l : List α) (f : β → α → β) (b : β) : reduce l (fun b x _ => f b x) b = l.foldl f b := rangeAll_plain f l b

theorem uniq_eq [DecidableEq α] (l : List α) : uniq l = uniqFrom [] l := by
  have key : ∀ (l : List α) (acc seen : List α),
      (l.foldl (fun (b : List α × List α) item => if item ∈ b.2 then b else (b.1 ++ [item], item :: b.2)) (acc, seen)).1 =
        acc ++ uniqFrom seen l := by
    intro l
    induction l with
    | nil => intro acc seen; simp [uniqFrom]
    | cons x xs ih =>
      intro acc seen
      simp only [List.foldl_cons, uniqFrom]
      split
      · rw [ih]
      · rw [ih]; simp
  rw [uniq, rangeAll_plain (fun (b : List α × List α) item => if item ∈ b.2 then b else (b.1 ++ [item], item :: b.2))]
  simpa using key l [] []

theorem groupBy_eq [DecidableEq υ] (l : List α) (key : α → υ) (k : υ) : groupBy l key k = l.filter (fun x => k = key x) := by
  have h : ∀ (l : List α) (acc : υ → List α),
      l.foldl (fun (result : υ → List α) item => fun k => if k = key item then result k ++ [item] else result k) acc k =
        acc k ++ l.filter (fun x => k = key x) := by
    intro l
    induction l with
    | nil => simp
    | cons x xs ih =>
      intro acc
      simp only [List.foldl_cons, List.filter_cons]
      rw [ih]
      by_cases hk : k = key x <;> simp [hk]
  rw [groupBy, rangeAll_plain (fun (result : υ → List α) item => fun k => if k = key item then result k ++ [item] else result k)]
  simpa using h l (fun _ => [])

theorem find_eq (l : List α) (p : α → Bool) : find l p = l.find? p := by
  have key : ∀ (l : List α) (i : Nat),
      (match range (ρ := α) (fun (_ : Unit) item _ => if p item then .error item else .ok ()) l i () with
        | .ok _ => none | .error x => some x) = l.find? p := by
    intro l
    induction l with
    | nil => intro i; rfl
    | cons x xs ih =>
      intro i
      simp only [range, List.find?_cons]
      cases p x <;> simp [ih]
  exact key l 0

theorem last_eq (l : List α) : last l = l.getLast? := by
  rw [last, List.getLast?_eq_getElem?]
  cases l <;> simp

theorem contains_eq [DecidableEq α] (l : List α) (x : α) : contains l x = decide (x ∈ l) := by
  have key : ∀ (l : List α) (i : Nat),
      (match range (ρ := Bool) (fun (_ : Unit) item _ => if item = x then .error true else .ok ()) l i () with
        | .ok _ => false | .error b => b) = decide (x ∈ l) := by
    intro l
    induction l with
    | nil => intro i; rfl
    | cons y ys ih =>
      intro i
      simp only [range]
      by_cases h : y = x
      · subst h; simp
      · simp [h, ih, Ne.symm h]
  exact key l 0

theorem everyBy_eq (l : List α) (p : α → Bool) : everyBy l p = l.all p := by
  have key : ∀ (l : List α) (i : Nat),
      (match range (ρ := Bool) (fun (_ : Unit) item _ => if !p item then .error false else .ok ()) l i () with
        | .ok _ => true | .error b => b) = l.all p := by
    intro l
    induction l with
    | nil => intro i; rfl
    | cons y ys ih =>
      intro i
      simp only [range, List.all_cons]
      cases p y with
      | false => simp
      | true => simpa using ih (i + 1)
  exact key l 0

theorem append_loop (f : α → β) (l : List α) (acc : List β) : l.foldl (fun r x => r ++ [f x]) acc = acc ++ l.map f := by
  induction l generalizing acc with
  | nil => simp
  | cons x xs ih => simp [ih]

theorem keys_eq (m : List (υ × α)) : keys m = m.map Prod.fst := by
  rw [keys, rangeAll_plain (fun (r : List υ) (e : υ × α) => r ++ [e.1]), append_loop]; rfl
theorem values_eq (m : List (υ × α)) : values m = m.map Prod.snd := by
  rw [values, rangeAll_plain (fun (r : List α) (e : υ × α) => r ++ [e.2]), append_loop]; rfl
theorem sum_eq (l : List Nat) : sum l = l.foldl (· + ·) 0 := rangeAll_plain _ l 0

example : uniq [3, 1, 3, 2, 1] = [3, 1, 2] ∧ filter [5, 6, 7] (fun _ i => i % 2 == 0) = [5, 7] ∧
    groupBy [1, 2, 3, 4] (· % 2) 0 = [2, 4] := by decide +kernel

end Traverse.Lo
