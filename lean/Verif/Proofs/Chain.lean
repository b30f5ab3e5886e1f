import Verif.Spec.Chain
import Verif.Proofs.Invariant
namespace Traverse
variable {κ : Type}

/-! ### Positional set and guardian -/

section
variable {T : Type} [DecidableEq T]
def PSet.listing (ps : PSet T) : List T := ps.order.filter (fun x => decide (x ∈ ps.items))
def PSet.Coh (ps : PSet T) : Prop := ps.invalidated = false → ps.cache = ps.listing

theorem PSet.Coh.list_snd {ps : PSet T} (h : ps.Coh) : ps.list.2 = ps.listing := by
  unfold PSet.list
  cases hi : ps.invalidated
  · simpa [hi] using h hi
  · simp [PSet.listing]
theorem PSet.Coh.list_fst {ps : PSet T} (h : ps.Coh) : ps.list.1.Coh ∧ ps.list.1.listing = ps.listing := by
  unfold PSet.list
  cases hi : ps.invalidated
  · simp [h]
  · simp [PSet.Coh, PSet.listing]
theorem PSet.new_coh (o : List T) (a : T) : (PSet.new o a).Coh := by simp [PSet.Coh, PSet.new]
theorem PSet.Coh.insert {ps : PSet T} (h : ps.Coh) (x : T) : (ps.insert x).1.Coh := by
  unfold PSet.insert
  repeat' split
  all_goals first | exact h | simp [PSet.Coh]
theorem PSet.Coh.delete {ps : PSet T} (h : ps.Coh) (x : T) : (ps.delete x).Coh := by
  unfold PSet.delete
  split
  · exact h
  · simp [PSet.Coh]
theorem PSet.listing_delete {ps : PSet T} (x : T) (hx : x ≠ ps.anchor) :
    (ps.delete x).listing = ps.listing.filter (fun y => !decide (y = x)) := by
  unfold PSet.delete
  rw [if_neg hx]
  simp only [PSet.listing, List.filter_filter]
  apply List.filter_congr
  intro y _
  by_cases h1 : y ∈ ps.items <;> by_cases h2 : y = x <;> simp [h1, h2]
end

/-- The order the decorators really have: fastward right before the handler. -/
def actualOrder : List Role := [.hibernate, .nanny, .clientFilter, .sampler, .fastward, .anchor]

/-- The links in use; `fw` tells whether the fastward link is still there. -/
def Setup.roles (S : Setup) (fw : Bool) : List Role :=
  actualOrder.filter (fun r => S.wants r && (fw || !decide (r = .fastward)))

structure GuardOK (S : Setup) (fw : Bool) (g : Guard) : Prop where
  shows : (S.activeRoles = [] ∧ g.positions = none) ∨
    ∃ ps, g.positions = some ps ∧ ps.anchor = .anchor ∧ ps.Coh ∧ ps.listing = S.roles fw
  inChain : ∀ r ∈ S.roles fw, r ∈ g.chain

/-- `activeRoles` and friends as functions of the bare facts. -/
def activeOf (h n f s : Bool) (r : Option Strategy) : List Role :=
  (if h then [.hibernate] else []) ++ (if n then [.nanny] else []) ++ (if f then [.clientFilter] else [])
  ++ (if s then [.sampler] else [])
  ++ (match r with | none => [] | some .fastward => [.fastward] | some _ => [.undefined])
def guardOf (a : List Role) (r : Option Strategy) : Guard :=
  let g := (a.filter (fun r => !decide (r = .fastward) && !decide (r = .undefined))).foldl Guard.decorate
    (Guard.fresh.arrange a (manifest a))
  match r with
  | some .fastward | some .undefined => g.decorate .fastward
  | _ => g
def wantsOf (h n f s : Bool) (r : Option Strategy) : Role → Bool
  | .fastward => r = some .fastward | .hibernate => h | .nanny => n | .clientFilter => f | .sampler => s
  | .anchor => true | .undefined => false

def Setup.nannyOn (S : Setup) : Bool := decide (S.nav.sub = .directoriesWithFiles ∧ S.filter.active = false)

theorem Setup.activeRoles_eq (S : Setup) :
    S.activeRoles = activeOf S.hiber.active S.nannyOn S.filter.active S.sampling S.resume := by
  unfold Setup.activeRoles activeOf Setup.nannyOn
  rcases S.resume with _ | _ | _ | _ <;> simp only [decide_eq_true_eq]
theorem Setup.guard_eq (S : Setup) : S.guard = guardOf S.activeRoles S.resume := rfl
theorem Setup.wants_eq (S : Setup) :
    S.wants = wantsOf S.hiber.active S.nannyOn S.filter.active S.sampling S.resume := by
  funext r
  have hn : (S.filter.primary.isNone && S.filter.child.isNone) = !S.filter.active := by
    unfold FilterOpts.active; cases S.filter.primary <;> cases S.filter.child <;> rfl
  cases r <;> simp only [Setup.wants, wantsOf, HiberOpts.active, Bool.and_assoc, hn, FilterOpts.active]
  rw [Bool.eq_iff_iff]
  simp [Setup.nannyOn, FilterOpts.active]

theorem guard_ok (S : Setup) : GuardOK S true S.guard := by
  constructor
  · unfold Setup.roles
    rw [Setup.guard_eq, Setup.activeRoles_eq, Setup.wants_eq]
    generalize S.hiber.active = h
    generalize S.nannyOn = n
    generalize S.filter.active = f
    generalize S.sampling = s
    generalize S.resume = r
    cases h <;> cases n <;> cases f <;> cases s <;> rcases r with _ | _ | _ | _ <;>
    first
      | exact .inl ⟨rfl, rfl⟩
      | refine .inr ⟨_, rfl, rfl, ?_, by decide⟩
        unfold PSet.Coh
        decide
  · unfold Setup.roles
    rw [Setup.guard_eq, Setup.activeRoles_eq, Setup.wants_eq]
    generalize S.hiber.active = h
    generalize S.nannyOn = n
    generalize S.filter.active = f
    generalize S.sampling = s
    generalize S.resume = r
    revert h n f s r
    intro h n f s r
    cases h <;> cases n <;> cases f <;> cases s <;> rcases r with _ | _ | _ | _ <;> decide

/-! ### What each link leaves alone -/

@[simp] theorem publish_guard (C : Client κ) (w : World κ) (n) : (w.publish C n).guard = w.guard := by
  unfold World.publish; split <;> rfl
@[simp] theorem publish_metrics (C : Client κ) (w : World κ) (n) : (w.publish C n).metrics = w.metrics := by
  unfold World.publish; split <;> rfl
@[simp] theorem publish_hits (C : Client κ) (w : World κ) (n) : (w.publish C n).hits = w.hits := by
  unfold World.publish; split <;> rfl
@[simp] theorem publish_steps (C : Client κ) (w : World κ) (n) : (w.publish C n).steps = w.steps := by
  unfold World.publish; split <;> rfl
@[simp] theorem publish_saves (C : Client κ) (w : World κ) (n) : (w.publish C n).saves = w.saves := by
  unfold World.publish; split <;> rfl
@[simp] theorem publish_hib (C : Client κ) (w : World κ) (n) : (w.publish C n).hib = w.hib := by
  unfold World.publish; split <;> rfl
@[simp] theorem publish_muted (C : Client κ) (w : World κ) (n) : (w.publish C n).muted = w.muted := by
  unfold World.publish; split <;> rfl

theorem hiberLink_guard (C : Client κ) (h) (w : World κ) (p) : (hiberLink C h w p).1.guard = w.guard := by
  unfold hiberLink
  by_cases hd : h.dies w.hib p.node = true
  · rw [if_pos hd]
  rw [if_neg hd]
  unfold hiberNext
  cases w.hib <;> simp only <;> (try split) <;> simp
theorem nannyLink_guard (S : Setup) (w : World κ) (p) : (nannyLink S w p).1.guard = w.guard := by
  unfold nannyLink; split <;> rfl
theorem childScheme_guard (S : Setup) (f) (w : World κ) (p) : (childScheme S f w p).1.guard = w.guard := by
  unfold childScheme; split <;> rfl
theorem primaryScheme_guard (P) (w : World κ) (p) : (primaryScheme P w p).1.guard = w.guard := by
  unfold primaryScheme
  cases P with
  | node f => simp only; split <;> rfl
  | sample m => simp only; split; rfl; split <;> rfl
theorem filterLink_guard (S : Setup) (w : World κ) (p) : (filterLink S w p).1.guard = w.guard := by
  unfold filterLink
  by_cases hd : S.filter.dies p.node = true
  · rw [if_pos hd]
  rw [if_neg hd]
  unfold schemeLink
  rcases S.filter.primary with _ | P <;> rcases S.filter.child with _ | f <;> simp only
  · exact childScheme_guard S f w p
  · exact primaryScheme_guard P w p
  · have h1 := primaryScheme_guard P w p
    rcases hP : primaryScheme P w p with ⟨w1, p1, t⟩
    rw [hP] at h1
    have h2 := childScheme_guard S f w1 p1
    rcases hC : childScheme S f w1 p1 with ⟨w2, p2, t2⟩
    rw [hC] at h2
    rcases t with ⟨_ | _, e⟩ | _ <;> simp only [hC]
    · exact h1
    · rcases t2 with ⟨_, e2⟩ | _ <;> exact h2.trans h1
    · exact h1

theorem linkOf_guard {S : Setup} {C : Client κ} {target r} {l : Link (World κ)} (h : linkOf S C target r = some l)
    (hr : r ≠ .fastward) (w : World κ) (p) : (l w p).1.guard = w.guard := by
  cases r <;> simp only [linkOf, Option.some.injEq] at h <;> (try subst h)
  · cases h
  · rfl
  · exact filterLink_guard ..
  · exact hiberLink_guard ..
  · rfl
  · exact nannyLink_guard ..
  · exact absurd rfl hr

theorem linkOf_chain {S : Setup} {C : Client κ} {target r} {l : Link (World κ)} (h : linkOf S C target r = some l)
    (w : World κ) (p) (q : Role) (hq : q ∈ w.guard.chain) (hqr : q ≠ r) : q ∈ (l w p).1.guard.chain := by
  by_cases hr : r = .fastward
  · subst hr
    simp only [linkOf, Option.some.injEq] at h
    subst h
    unfold fastwardLink
    split
    · exact hq
    · exact hq
    · simp [Guard.unwind, hq, hqr]
  · rw [linkOf_guard h hr]; exact hq

theorem iterate_direct (S : Setup) (C : Client κ) (target) (L : List Role) : L.Nodup → ∀ (w : World κ) p,
    (∀ r ∈ L, r ∈ w.guard.chain) →
    iterate (World.link S C target) L w p = iterate (fun _ r => linkOf S C target r) L w p := by
  induction L with
  | nil => intros; rfl
  | cons r L ih =>
    intro hn w p hc
    rw [List.nodup_cons] at hn
    rw [iterate, iterate]
    simp only [World.link, hc r (by simp), if_true]
    rcases hl : linkOf S C target r with _ | l
    · rfl
    · simp only
      rcases ho : l w p with ⟨w1, p1, t⟩
      simp only
      rw [ih hn.2 w1 p1 ?_]
      intro q hq
      have := linkOf_chain hl w p q (hc q (by simp [hq])) (fun h => hn.1 (h ▸ hq))
      rw [ho] at this
      exact this

/-! ### The chain in one piece -/

/-- The link that lets everything pass. -/
def passOn : Link (World κ) := fun w p => (w, p, .go true none)

def Setup.stageH (S : Setup) (C : Client κ) : Link (World κ) :=
  if S.hiber.active then hiberLink C S.hiber else passOn
def Setup.stageF (S : Setup) : Link (World κ) :=
  if S.filter.active then filterLink S else if S.nannyOn then nannyLink S else passOn
def Setup.stageW (S : Setup) (fw : Bool) (target : Path) : Link (World κ) :=
  if fw && decide (S.resume = some .fastward) then fastwardLink target else passOn

def Setup.rolesH (S : Setup) : List Role := if S.hiber.active then [.hibernate] else []
def Setup.rolesF (S : Setup) : List Role :=
  if S.filter.active then [.clientFilter] else if S.nannyOn then [.nanny] else []
def Setup.rolesS (S : Setup) : List Role := if S.sampling then [.sampler] else []
def Setup.rolesW (S : Setup) (fw : Bool) : List Role :=
  if fw && decide (S.resume = some .fastward) then [.fastward] else []

/-- Book keeping of the steps ghost. -/
def World.noted (w : World κ) (n : Node) (ran : List Role) : World κ :=
  { w with steps := w.steps ++ ran.map (fun r => (r, n)) }

def Setup.big (S : Setup) (C : Client κ) (target : Path) (fw : Bool) (w : World κ) (n : Node) : World κ × Reply :=
  match S.stageH C w ⟨n, []⟩ with
  | (w1, p1, t1) =>
    if !t1.goesOn then (w1.noted n S.rolesH, t1.reply)
    else match S.stageF w1 p1 with
      | (w2, p2, t2) =>
        if !t2.goesOn then (w2.noted n (S.rolesH ++ S.rolesF), t2.reply)
        else match S.stageW fw target w2 p2 with
          | (w3, p3, t3) =>
            if !t3.goesOn then (w3.noted n (S.rolesH ++ S.rolesF ++ S.rolesS ++ S.rolesW fw), t3.reply)
            else match anchorLink C w3 p3 with
              | (w4, _, t4) =>
                (w4.noted n (S.rolesH ++ S.rolesF ++ S.rolesS ++ S.rolesW fw ++ [.anchor]), t4.reply)

/-- The listing of the positions has been computed. -/
def World.touched (w : World κ) : World κ :=
  { w with guard := { w.guard with positions := w.guard.positions.map (fun ps => ps.list.1) } }

theorem Setup.nanny_not_filter (S : Setup) : S.nannyOn = true → S.filter.active = false := by
  unfold Setup.nannyOn; simp

theorem roles_eq (S : Setup) (fw) : S.roles fw = S.rolesH ++ S.rolesF ++ S.rolesS ++ S.rolesW fw ++ [.anchor] := by
  have hn := S.nanny_not_filter
  unfold Setup.roles Setup.rolesH Setup.rolesF Setup.rolesS Setup.rolesW
  rw [Setup.wants_eq]
  revert hn
  generalize S.hiber.active = h
  generalize S.nannyOn = n
  generalize S.filter.active = f
  generalize S.sampling = s
  generalize S.resume = r
  intro hn
  cases h <;> cases n <;> cases f <;> cases s <;> cases fw <;> rcases r with _ | _ | _ | _ <;>
    first | rfl | exact absurd (hn rfl) (by decide)

theorem roles_nodup (S : Setup) (fw) : (S.roles fw).Nodup := by
  unfold Setup.roles
  exact List.Nodup.sublist List.filter_sublist (by decide)

theorem iterate_one {ω : Type} {impl : ω → Role → Option (Link ω)} {r : Role} {l : Link ω} {rs w p}
    (h : impl w r = some l) : iterate impl (r :: rs) w p =
      if (l w p).2.2.goesOn then
        ((iterate impl rs (l w p).1 (l w p).2.1).1, (iterate impl rs (l w p).1 (l w p).2.1).2.1,
          (iterate impl rs (l w p).1 (l w p).2.1).2.2.1, r :: (iterate impl rs (l w p).1 (l w p).2.1).2.2.2)
      else ((l w p).1, (l w p).2.1, (l w p).2.2.reply, [r]) := by
  rw [iterate, h]

@[simp] theorem passOn_apply (w : World κ) (p) : passOn w p = (w, p, .go true none) := rfl
@[simp] theorem goesOn_true : Turn.goesOn (.go true none) = true := rfl

/-- A segment of the chain consisting of at most one link. -/
theorem iterate_seg (S : Setup) (C : Client κ) (target) (b : Bool) (r : Role) (l : Link (World κ)) (hl : linkOf S C target r = some l)
    (rs : List Role) (w : World κ) (p) :
    iterate (fun _ r => linkOf S C target r) ((if b then [r] else []) ++ rs) w p =
      let o := (if b then l else passOn) w p
      if o.2.2.goesOn then
        let q := iterate (fun _ r => linkOf S C target r) rs o.1 o.2.1
        (q.1, q.2.1, q.2.2.1, (if b then [r] else []) ++ q.2.2.2)
      else (o.1, o.2.1, o.2.2.reply, if b then [r] else []) := by
  cases b
  · simp [passOn, Turn.goesOn]
  · simp only [if_true, List.singleton_append]
    rw [iterate_one hl]

theorem anchorLink_stops (C : Client κ) (w : World κ) (p) : (anchorLink C w p).2.2.goesOn = false := by
  unfold anchorLink
  simp only
  split <;> rfl

theorem activeRoles_nil {S : Setup} (h : S.activeRoles = []) : S.hiber.active = false ∧ S.nannyOn = false ∧
    S.filter.active = false ∧ S.sampling = false ∧ S.resume = none := by
  rw [Setup.activeRoles_eq] at h
  unfold activeOf at h
  revert h
  generalize S.hiber.active = h
  generalize S.nannyOn = n
  generalize S.filter.active = f
  generalize S.sampling = s
  rcases S.resume with _ | _ | _ | _ <;> cases h <;> cases n <;> cases f <;> cases s <;> simp

theorem invoke_big {S : Setup} {C : Client κ} {target fw} {w : World κ} (hg : GuardOK S fw w.guard) (n : Node) :
    World.invoke S C target w n = S.big C target fw w.touched n := by
  rcases hg.shows with ⟨h0, hp⟩ | ⟨ps, hp, ha, hc, hl⟩
  · obtain ⟨h1, h2, h3, h4, h5⟩ := activeRoles_nil h0
    have htouch : w.touched = w := by
      obtain ⟨c, m, hb, ⟨ps, ch⟩, mu, no, hi, st, sa⟩ := w
      simp only at hp
      subst hp
      rfl
    rw [htouch]
    have s1 : S.stageH C = passOn := by simp [Setup.stageH, h1]
    have s2 : (S.stageF : Link (World κ)) = passOn := by simp [Setup.stageF, h2, h3]
    have s3 : (S.stageW fw target : Link (World κ)) = passOn := by simp [Setup.stageW, h5]
    simp [World.invoke, hp, Setup.big, s1, s2, s3, Setup.rolesH, Setup.rolesF, Setup.rolesS, Setup.rolesW, h1, h2, h3, h4,
      h5, World.noted]
  · have htouch : w.touched = { w with guard := { w.guard with positions := some ps.list.1 } } := by
      simp [World.touched, hp]
    simp only [World.invoke, hp]
    rw [hc.list_snd, hl, ← htouch, iterate_direct S C target _ (roles_nodup S fw) w.touched _ hg.inChain, roles_eq]
    have e1 : S.rolesF = if S.filter.active || S.nannyOn then [if S.filter.active then .clientFilter else .nanny] else [] := by
      unfold Setup.rolesF
      cases S.filter.active <;> cases S.nannyOn <;> rfl
    have e2 : (S.stageF : Link (World κ)) = if S.filter.active || S.nannyOn then
        (if S.filter.active then filterLink S else nannyLink S) else passOn := by
      unfold Setup.stageF
      cases S.filter.active <;> cases S.nannyOn <;> rfl
    have hF : linkOf S C target (if S.filter.active then .clientFilter else .nanny) =
        some (if S.filter.active then filterLink S else nannyLink S) := by
      cases S.filter.active <;> rfl
    simp only [List.append_assoc]
    rw [show S.rolesH = if S.hiber.active then [.hibernate] else [] from rfl,
      iterate_seg S C target S.hiber.active .hibernate _ rfl]
    unfold Setup.big
    rw [show S.stageH C = if S.hiber.active then hiberLink C S.hiber else passOn from rfl]
    rcases hH : (if S.hiber.active then hiberLink C S.hiber else passOn) w.touched ⟨n, []⟩ with ⟨w1, p1, t1⟩
    simp only
    cases hg1 : t1.goesOn
    · simp [World.noted, Setup.rolesH]
    · simp only [if_true, Bool.not_true, Bool.false_eq_true, if_false]
      rw [e1, iterate_seg S C target _ _ _ hF, e2]
      rcases hF2 : (if S.filter.active || S.nannyOn then
        (if S.filter.active then filterLink S else nannyLink S) else passOn) w1 p1 with ⟨w2, p2, t2⟩
      simp only
      cases hg2 : t2.goesOn
      · simp [World.noted, Setup.rolesH]
      · simp only [if_true, Bool.not_true, Bool.false_eq_true, if_false]
        rw [show S.rolesS = if S.sampling then [.sampler] else [] from rfl,
          iterate_seg S C target S.sampling .sampler _ rfl]
        have hS : (if S.sampling then (fun w p => (w, p, Turn.go true none)) else passOn : Link (World κ)) = passOn := by
          cases S.sampling <;> rfl
        rw [hS]
        simp only [passOn_apply, goesOn_true, if_true]
        rw [show S.rolesW fw = if fw && decide (S.resume = some .fastward) then [.fastward] else [] from rfl,
          iterate_seg S C target _ .fastward _ rfl]
        rw [show S.stageW fw target = if fw && decide (S.resume = some .fastward) then fastwardLink target else passOn
          from rfl]
        rcases hW : (if fw && decide (S.resume = some .fastward) then fastwardLink target else passOn) w2 p2 with
          ⟨w3, p3, t3⟩
        simp only
        cases hg3 : t3.goesOn
        · simp [World.noted, Setup.rolesH, Setup.rolesS]
        · simp only [if_true, Bool.not_true, Bool.false_eq_true, if_false]
          rw [iterate_one (l := anchorLink C) rfl, anchorLink_stops]
          simp [World.noted, Setup.rolesH, Setup.rolesS]

end Traverse
