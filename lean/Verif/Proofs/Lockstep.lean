import Verif.Spec.Lockstep
import Verif.Proofs.Env
import Verif.Props.Env
import Verif.Props.Loop
/-! Helper lemmas for C88: processes finish exactly if their calls are parts of one common list. -/
namespace Artist.Lockstep
open Artist Artist.Env

variable {W : Nat}

/-- The calls of all processes are the parts of one list that concern them. -/
def Lin (W : Nat) (s : State) (L : List Call) : Prop :=
  (∀ c ∈ L, c.members W ≠ []) ∧ ∀ r, s r = L.filter (fun c => decide (r ∈ c.members W))

theorem filter_erase_of (p : Call → Bool) (c : Call) : ∀ L : List Call, (L.erase c).filter p = if p c then (L.filter p).erase c else L.filter p
  | [] => by simp
  | d :: L => by
    have ih := filter_erase_of p c L
    by_cases hd : d = c
    · subst hd
      by_cases hp : p d <;> simp [hp]
    · have hbeq : (d == c) = false := by simp [hd]
      rw [List.erase_cons_tail (by simp [hbeq])]
      by_cases hp : p d
      · by_cases hc : p c
        · simp only [List.filter_cons, hp, if_true, hc] at ih ⊢
          rw [List.erase_cons_tail (by simp [hbeq]), ih]
        · simp only [List.filter_cons, hp, if_true, hc] at ih ⊢
          rw [ih]; simp
      · by_cases hc : p c <;> simp [List.filter_cons, hp, hc] at ih ⊢ <;> exact ih

theorem step_lin {s s' : State} {L : List Call} (h : Lin W s L) (hs : Step W s s') : ∃ L', Lin W s' L' ∧ L'.length + 1 = L.length := by
  obtain ⟨c, hne, hc⟩ := hs
  obtain ⟨h0, h⟩ := h
  have hcL : c ∈ L := by
    obtain ⟨r, hr⟩ := List.exists_mem_of_ne_nil _ hne
    have := List.mem_of_head? (hc r hr)
    rw [h r] at this
    exact (List.mem_filter.1 this).1
  refine ⟨L.erase c, ⟨fun d hd => h0 d (List.mem_of_mem_erase hd), ?_⟩, ?_⟩
  · intro r
    rw [filter_erase_of]
    by_cases hr : r ∈ c.members W
    · simp only [hr, if_true, decide_true]
      have h1 := hc r hr
      rw [← h r]
      cases hsr : s r with
      | nil => simp [hsr] at h1
      | cons d l =>
        rw [hsr] at h1
        simp only [List.head?_cons, Option.some.injEq] at h1
        subst h1
        simp
    · simp only [hr, if_false, decide_false, Bool.false_eq_true]
      exact h r
  · rw [List.length_erase_of_mem hcL]
    have := List.length_pos_of_mem hcL
    omega

theorem reaches_lin {s s' : State} {L : List Call} (h : Lin W s L) (hs : Reaches W s s') : ∃ L', Lin W s' L' := by
  induction hs with
  | refl => exact ⟨L, h⟩
  | tail _ hstep ih =>
    obtain ⟨L', h'⟩ := ih
    obtain ⟨L'', h'', -⟩ := step_lin h' hstep
    exact ⟨L'', h''⟩

theorem lin_finishes : ∀ (L : List Call) (s : State), Lin W s L → ∃ s', Reaches W s s' ∧ Finished s'
  | [], s, h => ⟨s, .refl, fun r => by rw [h.2 r]; rfl⟩
  | c :: L, s, h => by
    obtain ⟨h0, h⟩ := h
    have hstep : Step W s (fun r => if r ∈ c.members W then (s r).tail else s r) := by
      refine .collective s c (h0 c (by simp)) ?_
      intro r hr
      rw [h r]
      simp [hr]
    obtain ⟨s', h1, h2⟩ := lin_finishes L (fun r => if r ∈ c.members W then (s r).tail else s r) (by
      refine ⟨fun d hd => h0 d (by simp [hd]), fun r => ?_⟩
      dsimp only
      rw [h r]
      by_cases hr : r ∈ c.members W <;> simp [hr])
    exact ⟨s', Relation.ReflTransGen.head hstep h1, h2⟩

theorem finished_lin {s s' : State} (h : Reaches W s s') (hf : Finished s') : ∃ L, Lin W s L := by
  induction h using Relation.ReflTransGen.head_induction_on with
  | refl => exact ⟨[], by simp, fun r => by rw [hf r]; rfl⟩
  | head hstep _ ih =>
    obtain ⟨L, h0, hL⟩ := ih
    obtain ⟨c, hne, hc⟩ := hstep
    refine ⟨c :: L, ?_, ?_⟩
    · intro d hd
      rcases List.mem_cons.1 hd with rfl | hd
      · exact hne
      · exact h0 d hd
    · intro r
      have := hL r
      by_cases hr : r ∈ c.members W
      · simp only [hr, if_true] at this
        have h1 := hc r hr
        rw [List.filter_cons_of_pos (by simpa using hr), ← this]
        exact (List.cons_head?_tail h1).symm
      · simp only [hr, if_false] at this
        rw [List.filter_cons_of_neg (by simpa using hr)]
        exact this

theorem run_bounded : ∀ (n : Nat) (s : State) (L : List Call), Lin W s L → ∀ run : Nat → State, run 0 = s →
    (∀ i, i < n → Step W (run i) (run (i + 1))) → n ≤ L.length
  | 0, _, _, _, _, _, _ => Nat.zero_le _
  | n + 1, s, L, h, run, h0, hrun => by
    obtain ⟨L', h', hl⟩ := step_lin h (h0 ▸ hrun 0 (by omega))
    have := run_bounded n (run 1) L' h' (fun i => run (i + 1)) rfl (fun i hi => hrun (i + 1) (by omega))
    omega

theorem always_of_lin {s : State} {L : List Call} (h : Lin W s L) : AlwaysFinishes W s := by
  refine ⟨?_, L.length, fun n run h0 hrun => run_bounded n s L h run h0 hrun⟩
  intro s' hs'
  obtain ⟨L', h'⟩ := reaches_lin h hs'
  exact lin_finishes L' s' h'

theorem lin_of_always {s : State} (h : AlwaysFinishes W s) : ∃ L, Lin W s L := by
  obtain ⟨s', h1, h2⟩ := h.1 s .refl
  exact finished_lin h1 h2

theorem never_iff {s : State} : NeverFinishes W s ↔ ¬ ∃ L, Lin W s L := by
  constructor
  · rintro h ⟨L, hL⟩
    obtain ⟨s', h1, h2⟩ := lin_finishes L s hL
    exact h s' h1 h2
  · intro h s' h1 h2
    exact h (finished_lin h1 h2)

/-- members of a process group see the same calls on it -/
theorem lin_comm {s : State} {L : List Call} (h : Lin W s L) (comm : Comm) (m : List Nat) (hm : ∀ c : Call, c.comm = comm → c.members W = m) (r : Nat) (hr : r ∈ m) :
    (s r).filter (fun c => decide (c.comm = comm)) = L.filter (fun c => decide (c.comm = comm)) := by
  rw [h.2 r, List.filter_filter]
  apply List.filter_congr
  intro c _
  by_cases hc : c.comm = comm
  · simp [hc, hm c hc, hr]
  · simp [hc]

section Epochs
variable {K : Type} [Field K] [LinearOrder K] [IsStrictOrderedRing K] (o : Loop.Options K) (c : Training.Config K) (hw : 0 < c.windowSize)
  (hl : 0 < o.maxEpoch ∨ 0 < o.logStep)
include hw hl

theorem epochs_spec (losses : Nat → K) : Loop.EndsAfter o.tolerance (o.maxEpoch + 1) (Loop.FiresAt c losses) losses (epochs o c losses) := by
  obtain ⟨out, n, h1, h2, h3, -⟩ := Loop.C34_reconstruction_partial o c hw hl losses
  rw [epochs, h1]
  subst h3
  exact h2

theorem aimEpochs_spec (losses : Nat → K) : Loop.EndsAfter o.tolerance (o.maxEpoch + 1) (Loop.FiresAt c losses) losses (aimEpochs o c losses) := by
  obtain ⟨out, n, h1, h2, h3, -⟩ := Loop.C34_aim_points_partial o c hw hl losses
  rw [aimEpochs, h1]
  subst h3
  exact h2

theorem sameEpochs_iff (losses losses' : Nat → K) : SameEpochs o c losses losses' ↔ epochs o c losses = epochs o c losses' := by
  constructor
  · rintro ⟨n, h1, h2⟩
    rw [Loop.C34_epochs_determined _ _ _ _ _ _ (epochs_spec o c hw hl losses) h1, Loop.C34_epochs_determined _ _ _ _ _ _ (epochs_spec o c hw hl losses') h2]
  · intro h
    exact ⟨_, epochs_spec o c hw hl losses, h ▸ epochs_spec o c hw hl losses'⟩

theorem sameEpochs_aim_iff (losses losses' : Nat → K) : SameEpochs o c losses losses' ↔ aimEpochs o c losses = aimEpochs o c losses' := by
  constructor
  · rintro ⟨n, h1, h2⟩
    rw [Loop.C34_epochs_determined _ _ _ _ _ _ (aimEpochs_spec o c hw hl losses) h1, Loop.C34_epochs_determined _ _ _ _ _ _ (aimEpochs_spec o c hw hl losses') h2]
  · intro h
    exact ⟨_, aimEpochs_spec o c hw hl losses, h ▸ aimEpochs_spec o c hw hl losses'⟩

end Epochs

/-- all calls on the default group: the processes finish exactly if they make the same calls -/
theorem lin_world {s : State} (hW : 0 < W) (hs : ∀ r, ∀ c ∈ s r, c.comm = .world) (hout : ∀ r, W ≤ r → s r = []) :
    (∃ L, Lin W s L) ↔ ∀ r r', r < W → r' < W → s r = s r' := by
  have hm : ∀ c : Call, c.comm = .world → c.members W = List.range W := fun c hc => by simp [Call.members, hc]
  constructor
  · rintro ⟨L, hL⟩ r r' hr hr'
    have e : ∀ r, (s r).filter (fun c => decide (c.comm = .world)) = s r := by
      intro r
      rw [List.filter_eq_self]
      intro c hc
      simpa using hs r c hc
    rw [← e r, ← e r', lin_comm hL .world (List.range W) hm r (by simpa using hr), lin_comm hL .world (List.range W) hm r' (by simpa using hr')]
  · intro h
    refine ⟨s 0, ?_, ?_⟩
    · intro c hc
      rw [hm c (hs 0 c hc)]
      intro h0
      have := congrArg List.length h0
      simp at this; omega
    · intro r
      by_cases hr : r < W
      · rw [h r 0 hr hW, eq_comm, List.filter_eq_self]
        intro c hc
        simpa [hm c (hs 0 c hc)] using hr
      · rw [hout r (by omega), eq_comm, List.filter_eq_nil_iff]
        intro c hc
        simpa [hm c (hs 0 c hc)] using hr

/-- nested mode: which calls every process makes -/
theorem nested_setup (W G : Nat) (hG : 0 < G) (h : G < W) : ∃ T inv, ∃ m : Nat → List Nat, (∀ g r, g < G → (r ∈ m g ↔ r < W ∧ r % G = g)) ∧
    (∀ r, r < W → T[r]? = some [r % G]) ∧ T.length = W ∧ distribute W G = .ok (T, true) ∧
    ∀ r, r < W → ∃ info, setupInfo r W G = .ok (T, true, info, inv) ∧ subgroup info = .ranks (m (r % G)) := by
  obtain ⟨T, hT, hl, hrow⟩ := distribute_nested W G hG h
  have h1 : ∀ gs ∈ T, gs.length ≤ 1 := by
    intro gs hgs
    obtain ⟨k, hk, rfl⟩ := List.getElem_of_mem hgs
    have := hrow k (by omega)
    rw [List.getElem?_eq_getElem hk] at this
    simp at this; simp [this]
  have hworks : ∀ r g, WorksOn T r g ↔ r < W ∧ r % G = g := by
    intro r g
    constructor
    · rintro ⟨gs, h1, h2⟩
      have hr : r < W := by rw [← hl]; exact (List.getElem?_eq_some_iff.1 h1).1
      rw [hrow r hr] at h1
      obtain rfl := Option.some.inj h1
      exact ⟨hr, (List.mem_singleton.1 h2).symm⟩
    · rintro ⟨hr, rfl⟩
      exact ⟨_, hrow r hr, by simp⟩
  have key : ∀ g, ∃ m : List Nat, g < G → (∀ r, r ∈ m ↔ WorksOn T r g) ∧ ∀ r, WorksOn T r g → (createSubgroups r T).1.processSubgroup = some m := by
    intro g
    by_cases hg : g < G
    · obtain ⟨m, -, h2, h3⟩ := C02_group_ranks T h1 g ⟨g, (hworks g g).2 ⟨by omega, Nat.mod_eq_of_lt hg⟩⟩
      exact ⟨m, fun _ => ⟨h2, fun r hr => (h3 r hr).1⟩⟩
    · exact ⟨[], fun h => absurd h hg⟩
  choose m hm using key
  refine ⟨T, invert T, m, ?_, hrow, hl, hT, ?_⟩
  · intro g r hg
    rw [(hm g hg).1 r, hworks]
  · intro r hr
    refine ⟨(createSubgroups r T).1, by simp [setupInfo, hT, createSubgroups], ?_⟩
    rw [subgroup, (hm (r % G) (Nat.mod_lt _ hG)).2 r ((hworks r _).2 ⟨hr, rfl⟩)]

end Artist.Lockstep
