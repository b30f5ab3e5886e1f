import Verif.Proofs.Brackets
import Verif.Demo.Demo
/-
C07: life-cycle events are balanced and well nested.
-/
namespace Traverse
variable {σ : Type}

/-- **C07** The complete history of a session, whatever the handler (errors, panics), skip handler and panic
handler answered and whatever the depth limit, is one well nested visit of the root (see `Visit`); no path is
announced by Descend twice; every Descend has its Ascend; and the depth counter is back at its start. -/
theorem C07_balanced (c : Nav) (env : Env σ) (x : σ) (pre : Path) (fs : FS)
    (hsort : SortPermutes c) (hread : ReadSelects c) (hdistinct : fs.Distinct) :
    Visit (pre ++ [fs.name]) (walk c env x pre fs).2.log ∧
    (descents (walk c env x pre fs).2.log).Nodup ∧
    (ascents (walk c env x pre fs).2.log).Perm (descents (walk c env x pre fs).2.log) ∧
    (walk c env x pre fs).2.depth = (St.fresh x).depth := by
  obtain ⟨v, hv, hvis, hsub⟩ := traverse_visit c env (prep c fs) [] pre (St.fresh x)
  have hlog : (walk c env x pre fs).2.log = v := by
    simp only [walk]; rw [hv]; simp [St.fresh]
  have hvisit : Visit (pre ++ [fs.name]) v := by
    rcases hvis with ⟨h, _⟩ | h
    · rw [fresh_tooDeep] at h; simp at h
    · rw [(prep_entry c fs).1] at h; exact h
  rw [hlog]
  refine ⟨hvisit, ?_, hvisit.balanced, traverse_depth c env [] pre (prep c fs) (St.fresh x)⟩
  exact List.Nodup.sublist hsub
    (items_preOrder c _ (prep_distinct c hsort hread fs hdistinct) [] pre _).nodup

/-- Every handler call happens between the Descend and the Ascend of the same path: for each call there is a
sub-history that is a visit of that node and contains the call. -/
theorem C07_handler_inside {p : Path} {l : List Ev} (h : Visit p l) :
    ∀ n r, Ev.invoke n r ∈ l → ∃ a v b, l = a ++ v ++ b ∧ Visit n.path v ∧ Ev.invoke n r ∈ v := by
  refine Visit.rec
    (motive_1 := fun _ l _ => ∀ n r, Ev.invoke n r ∈ l → ∃ a v b, l = a ++ v ++ b ∧ Visit n.path v ∧ Ev.invoke n r ∈ v)
    (motive_2 := fun _ l _ => ∀ n r, Ev.invoke n r ∈ l → ∃ a v b, l = a ++ v ++ b ∧ Visit n.path v ∧ Ev.invoke n r ∈ v)
    ?_ ?_ ?_ h
  · intro p isDir own inner tail hown hone hlen hinner htail ih n r hm
    have hcase : Ev.invoke n r ∈ own ∨ Ev.invoke n r ∈ inner := by
      rcases htail with rfl | ⟨_, _, _, rfl, _⟩ <;> simpa using hm
    rcases hcase with ho | hi
    · have hp : n.path = p := hown _ ho
      subst hp
      refine ⟨[], _, [], by simp only [List.nil_append, List.append_nil],
        Visit.mk n.path isDir own inner tail hown hone hlen hinner htail, ?_⟩
      simp [ho]
    · obtain ⟨a, v, b, rfl, hv, hvm⟩ := ih n r hi
      exact ⟨[.descend p isDir] ++ own ++ a, v, b ++ tail ++ [.ascend p isDir], by simp, hv, hvm⟩
  · intro p n r hm; simp at hm
  · intro p name a b _ _ iha ihb n r hm
    rcases List.mem_append.1 hm with hm | hm
    · obtain ⟨x, v, y, rfl, hv, hvm⟩ := iha n r hm
      exact ⟨x, v, y ++ b, by simp, hv, hvm⟩
    · obtain ⟨x, v, y, rfl, hv, hvm⟩ := ihb n r hm
      exact ⟨a ++ x, v, y, by simp, hv, hvm⟩

/-- A session with a panic in the middle: the hypotheses hold and the history is not trivial. -/
example : SortPermutes (Demo.nav .universal) ∧ Demo.fs.Distinct ∧
    descents (walk (Demo.nav .universal) (Demo.env (Demo.at_ ["r", "a", "b"] .panic)) () [] Demo.fs).2.log =
      [["r"], ["r", "c"], ["r", "c", "w"], ["r", "a"], ["r", "a", "b"]] ∧
    ascents (walk (Demo.nav .universal) (Demo.env (Demo.at_ ["r", "a", "b"] .panic)) () [] Demo.fs).2.log =
      [["r", "c", "w"], ["r", "c"], ["r", "a", "b"], ["r", "a"], ["r"]] :=
  ⟨Demo.sortPermutes _, Demo.distinct, by decide +kernel, by decide +kernel⟩

end Traverse
