import Verif.Proofs.Faults2
namespace Traverse

/-- The Parent of a node below the root is the node of the directory that contains it. -/
theorem items_parent (c : Nav) (t : Tree) : t.WF → ∀ ps pp d, ∀ it ∈ items c ps pp d t, d < it.node.depth →
    ∃ q, it.node.parent = some q ∧ q.path = it.node.path.dropLast ∧ q.depth = it.node.depth - 1 ∧ q.isDir = true := by
  induction t using Tree.ind with
  | h e r fs ds kids ih =>
    intro hwf ps pp d it hit hd
    simp only [items] at hit
    split at hit
    · simp at hit
    · rcases List.mem_cons.1 hit with rfl | hit
      · simp only [mkNode_depth] at hd; omega
      · rw [itemsList_eq, List.mem_flatMap] at hit
        obtain ⟨k, hk, hit⟩ := hit
        have hkwf : k.WF := by
          simp only [Tree.WF] at hwf
          exact (Tree.wfL_iff kids).1 hwf.2 k hk
        by_cases hdd : d + 1 < it.node.depth
        · exact ih k hk hkwf _ _ _ it hit hdd
        · have hp := items_path c k _ _ _ it hit
          have : it.node.depth = d + 1 := by omega
          obtain ⟨u, ps', h1, h2, h3, h4, h5⟩ := items_at c k _ _ _ it hit
          have hps := h4 this
          have hpar : it.node.parent = some (mkNode c ps (pp ++ [e.name]) (.node e r fs ds kids) (d + 1)).toNodeInfo := by
            rw [h2]; simp only [Node.parent, mkNode_parents, hps, List.head?_cons]
          refine ⟨_, hpar, ?_, ?_, ?_⟩
          · have hpl : (pp ++ [e.name]) ++ [k.name] = it.node.path := by
              refine hp.1.eq_of_length ?_
              have := hp.2
              simp at this ⊢
              omega
            rw [← hpl, List.dropLast_concat]; rfl
          · show periDepth (d + 1) = _
            simp only [periDepth]; omega
          · show e.isDir = true
            simp only [Tree.WF] at hwf
            cases he : e.isDir
            · have := hwf.1 he
              subst this; simp at hk
            · rfl

end Traverse
