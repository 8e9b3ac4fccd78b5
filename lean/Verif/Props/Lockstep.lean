import Verif.Proofs.Lockstep
import Mathlib.Data.Rat.Defs
import Mathlib.Algebra.Order.Ring.Rat
import Mathlib.Tactic.NormNum
/-!
# C88: distributed optimisations come to an end
-/
namespace Artist.Lockstep
open Artist Artist.Env

variable {K : Type} [Field K] [LinearOrder K] [IsStrictOrderedRing K]

/-- C88 with at most as many processes as heliostat groups: reconstructions always finish, whatever losses the processes see. -/
theorem C88_flat_partial (s : Setting K) (W G : Nat) (hW : 0 < W) (h : W ≤ G) (losses : Nat → Nat → Nat → K) : AlwaysFinishes W (reconstruction s W G losses) := by
  obtain ⟨T, hT, -, -⟩ := C01_flat_balanced W G hW h
  have hset : ∀ r, setupInfo r W G = .ok (T, false, defaultInfo, invert T) := fun r => by simp [setupInfo, hT]
  have hcalls : ∀ r, r < W → reconstruction s W G losses r =
      (List.range G).flatMap (fun g => (s.broadcast g).map fun n => ⟨.world, .broadcast, n⟩) ++ [⟨.world, .min, s.heliostats⟩, ⟨.world, .gather, 0⟩] := by
    intro r hr
    have : ∀ gs : List Nat, gs.flatMap (fun _ => ([] : List Call)) = [] := fun gs => by simp
    simp only [reconstruction, if_pos hr, hset r, reconstructionCalls, Bool.and_false, Bool.false_eq_true, if_false, this, List.nil_append]
  have hout : ∀ r, W ≤ r → reconstruction s W G losses r = [] := fun r hr => by rw [reconstruction, if_neg (by omega)]
  obtain ⟨L, hL⟩ := (lin_world hW (fun r c hc => by
    by_cases hr : r < W
    · rw [hcalls r hr] at hc
      simp only [List.mem_append, List.mem_flatMap, List.mem_map, List.mem_cons, List.not_mem_nil, or_false] at hc
      rcases hc with ⟨g, -, n, -, rfl⟩ | rfl | rfl <;> rfl
    · rw [hout r (by omega)] at hc
      simp at hc) hout).2 (fun r r' hr hr' => by rw [hcalls r hr, hcalls r' hr'])
  exact always_of_lin hL

/-- the reconstruction of the examples: at most 10 epochs down to the loss 1/2, early stopping after 3 epochs without improvement over 2 epochs; one parameter of size 6 per group -/
def setting : Setting ℚ := ⟨⟨1 / 2, 10, 5⟩, ⟨2, 3, 0, false, 1 / 100⟩, fun _ => [6], fun _ => true, fun _ => [6], 4⟩

example : AlwaysFinishes 2 (reconstruction setting 2 3 fun r g i => (r : ℚ) + g + i) := C88_flat_partial _ _ _ (by decide) (by decide) _

/-- C88 with more processes than heliostat groups, exactly: a reconstruction finishes if and only if all processes that share a heliostat group leave their loops after the same number of
epochs; otherwise it never finishes.  Every process decides from its own losses. -/
theorem C88_nested_iff (s : Setting K) (hw : 0 < s.stopping.windowSize) (hl : 0 < s.options.maxEpoch ∨ 0 < s.options.logStep) (hp : ∀ g, s.parameters g ≠ []) (W G : Nat)
    (hG : 0 < G) (h : G < W) (losses : Nat → Nat → Nat → K) :
    ∃ T, distribute W G = .ok (T, true) ∧
      (AlwaysFinishes W (reconstruction s W G losses) ↔
        ∀ r r' g, WorksOn T r g → WorksOn T r' g → s.measured g = true → SameEpochs s.options s.stopping (losses r g) (losses r' g)) ∧
      (¬ AlwaysFinishes W (reconstruction s W G losses) → NeverFinishes W (reconstruction s W G losses)) := by
  obtain ⟨T, inv, m, hm, hrow, hlen, hT, hset⟩ := nested_setup W G hG h
  refine ⟨T, hT, ?_, ?_⟩
  swap
  · intro hn
    rw [never_iff]
    rintro ⟨L, hL⟩
    exact hn (always_of_lin hL)
  have hworks : ∀ r g, WorksOn T r g → r < W ∧ r % G = g := by
    rintro r g ⟨gs, h1, h2⟩
    have hr : r < W := by rw [← hlen]; exact (List.getElem?_eq_some_iff.1 h1).1
    rw [hrow r hr] at h1
    obtain rfl := Option.some.inj h1
    exact ⟨hr, (List.mem_singleton.1 h2).symm⟩
  let final : List Call := (List.range G).flatMap (fun g => (s.broadcast g).map fun n => ⟨.world, .broadcast, n⟩) ++ [⟨.world, .min, s.heliostats⟩, ⟨.world, .gather, 0⟩]
  have hfinal : ∀ c ∈ final, c.comm = .world := by
    intro c hc
    simp only [final, List.mem_append, List.mem_flatMap, List.mem_map, List.mem_cons, List.not_mem_nil, or_false] at hc
    rcases hc with ⟨g, -, n, -, rfl⟩ | rfl | rfl <;> rfl
  let block : Nat → Nat → List Call := fun g n => (List.replicate n ((s.parameters g).map fun k => (⟨.ranks (m g), .sum, k⟩ : Call))).flatten
  have hblock : ∀ g n, ∀ c ∈ block g n, c.comm = .ranks (m g) := by
    intro g n c hc
    simp only [block, List.mem_flatten, List.mem_replicate] at hc
    obtain ⟨l, ⟨-, rfl⟩, hc⟩ := hc
    obtain ⟨k, -, rfl⟩ := List.mem_map.1 hc
    rfl
  have hblockLen : ∀ g n, (block g n).length = n * (s.parameters g).length := by
    intro g n
    simp [block]
  let e : Nat → Nat := fun r => if s.measured (r % G) then epochs s.options s.stopping (losses r (r % G)) else 0
  have hcalls : ∀ r, r < W → reconstruction s W G losses r = block (r % G) (e r) ++ final := by
    intro r hr
    obtain ⟨info, h1, h2⟩ := hset r hr
    have h3 : T.getD r [] = [r % G] := by rw [List.getD_eq_getElem?_getD, hrow r hr]; rfl
    simp only [reconstruction, if_pos hr, h1, reconstructionCalls, h3, h2, Bool.and_true, List.flatMap_cons, List.flatMap_nil, List.append_nil, block, e, final,
      List.append_assoc]
    congr 1
    split <;> rfl
  have hout : ∀ r, W ≤ r → reconstruction s W G losses r = [] := fun r hr => by rw [reconstruction, if_neg (by omega)]
  constructor
  · intro ha r r' g hr hr' hg
    obtain ⟨L, hL⟩ := lin_of_always ha
    obtain ⟨hrW, rfl⟩ := hworks r g hr
    obtain ⟨hrW', hmod⟩ := hworks r' _ hr'
    have hgG : r % G < G := Nat.mod_lt _ hG
    have hcomm : ∀ c : Call, c.comm = .ranks (m (r % G)) → c.members W = m (r % G) := fun c hc => by simp [Call.members, hc]
    have key : ∀ q, q < W → q % G = r % G → e q * (s.parameters (r % G)).length = (L.filter (fun c => decide (c.comm = .ranks (m (r % G))))).length := by
      intro q hq hqg
      have := lin_comm hL _ _ hcomm q ((hm _ _ hgG).2 ⟨hq, hqg⟩)
      rw [← this, hcalls q hq, List.filter_append, hqg]
      rw [List.filter_eq_self.2 (fun c hc => by simpa using hblock _ _ c hc), List.filter_eq_nil_iff.2 (fun c hc => by simp [hfinal c hc]), List.append_nil, hblockLen]
    have he : e r = e r' := by
      have h1 := key r hrW rfl
      rw [← key r' hrW' hmod] at h1
      exact Nat.eq_of_mul_eq_mul_right (List.length_pos_iff.2 (hp _)) h1
    rw [sameEpochs_iff s.options s.stopping hw hl]
    simpa [e, hmod, hg] using he
  · intro hsame
    have he : ∀ r, r < W → e r = e (r % G) := by
      intro r hr
      have hg : r % G < G := Nat.mod_lt _ hG
      simp only [e, Nat.mod_mod]
      by_cases hmeas : s.measured (r % G)
      · have w1 : WorksOn T r (r % G) := ⟨_, hrow r hr, by simp⟩
        have w2 : WorksOn T (r % G) (r % G) := ⟨_, hrow (r % G) (by omega), by simp [Nat.mod_mod]⟩
        have := (sameEpochs_iff s.options s.stopping hw hl _ _).1 (hsame r (r % G) (r % G) w1 w2 hmeas)
        simp [hmeas, this]
      · simp [hmeas]
    refine always_of_lin (L := (List.range G).flatMap (fun g => block g (e g)) ++ final) ⟨?_, ?_⟩
    · intro c hc
      rcases List.mem_append.1 hc with hc | hc
      · obtain ⟨g, hg, hc⟩ := List.mem_flatMap.1 hc
        have hgG : g < G := List.mem_range.1 hg
        have : c.members W = m g := by simp [Call.members, hblock g _ c hc]
        rw [this]
        exact List.ne_nil_of_mem ((hm g g hgG).2 ⟨by omega, Nat.mod_eq_of_lt hgG⟩)
      · have : c.members W = List.range W := by simp [Call.members, hfinal c hc]
        rw [this]
        exact List.ne_nil_of_mem (List.mem_range.2 (by omega : 0 < W))
    · intro r
      have hf : final.filter (fun c => decide (r ∈ c.members W)) = if r < W then final else [] := by
        split
        next hr =>
          rw [List.filter_eq_self]
          intro c hc
          simpa [Call.members, hfinal c hc] using hr
        next hr =>
          rw [List.filter_eq_nil_iff]
          intro c hc
          simpa [Call.members, hfinal c hc] using hr
      have hb : ∀ g, g < G → (block g (e g)).filter (fun c => decide (r ∈ c.members W)) = if r < W ∧ r % G = g then block g (e g) else [] := by
        intro g hg
        split
        next hr =>
          rw [List.filter_eq_self]
          intro c hc
          have : c.members W = m g := by simp [Call.members, hblock g _ c hc]
          simpa [this] using (hm g r hg).2 hr
        next hr =>
          rw [List.filter_eq_nil_iff]
          intro c hc
          have : c.members W = m g := by simp [Call.members, hblock g _ c hc]
          simpa [this] using fun h' => hr ((hm g r hg).1 h')
      rw [List.filter_append, hf, List.filter_flatMap]
      by_cases hr : r < W
      · rw [if_pos hr, hcalls r hr, he r hr]
        congr 1
        have hsum : ∀ n, n ≤ G → (List.range n).flatMap (fun g => (block g (e g)).filter (fun c => decide (r ∈ c.members W))) =
            if r % G < n then block (r % G) (e (r % G)) else [] := by
          intro n
          induction n with
          | zero => intro _; simp
          | succ n ih =>
            intro hn
            rw [List.range_succ, List.flatMap_append, ih (by omega), List.flatMap_cons, List.flatMap_nil, List.append_nil, hb n (by omega)]
            rcases Nat.lt_trichotomy (r % G) n with hlt | heq | hgt
            · rw [if_pos hlt, if_neg (by omega), if_pos (by omega), List.append_nil]
            · rw [if_neg (by omega), if_pos ⟨hr, heq⟩, if_pos (by omega), List.nil_append, heq]
            · rw [if_neg (by omega), if_neg (by omega), if_neg (by omega), List.append_nil]
        rw [hsum G (le_refl _), if_pos (Nat.mod_lt _ hG)]
      · rw [if_neg hr, hout r (by omega), List.append_nil, eq_comm, List.flatMap_eq_nil_iff]
        intro g hg
        rw [hb g (List.mem_range.1 hg), if_neg (by tauto)]

/-- three processes, two groups; processes 0 and 2 share group 0 and see the same losses, process 1 leaves its loop at once -/
example : AlwaysFinishes 3 (reconstruction setting 3 2 fun r _ i => if r = 1 then 0 else 1 / (i + 1 : ℚ)) := by
  obtain ⟨T, hT, h, -⟩ := C88_nested_iff setting (by decide) (.inl (by decide)) (by simp [setting]) 3 2 (by decide) (by decide) fun r _ i => if r = 1 then 0 else 1 / (i + 1 : ℚ)
  obtain rfl : [[0], [1], [0]] = T := by
    have : distribute 3 2 = .ok ([[0], [1], [0]], true) := by decide
    rw [this] at hT
    simpa using hT
  refine h.2 ?_
  intro r r' g hr hr' _
  rw [sameEpochs_iff _ _ (by decide) (.inl (by decide))]
  obtain ⟨gs, h1, h2⟩ := hr
  obtain ⟨gs', h1', h2'⟩ := hr'
  have key : ∀ r gs, [[0], [1], [0]][r]? = some gs → g ∈ gs → (r = 1 ↔ g = 1) := by
    intro r gs h1 h2
    rcases r with _ | _ | _ | r <;> simp at h1 <;> subst h1 <;> simp_all
  have e : (r = 1) = (r' = 1) := propext ((key r gs h1 h2).trans (key r' gs' h1' h2').symm)
  simp only [e]

/-- C88 with more processes than heliostat groups, if all processes that share a group see the same losses: a reconstruction always finishes.  (They do not in general: every process computes
the loss of its own heliostats.) -/
theorem C88_nested_partial (s : Setting K) (hw : 0 < s.stopping.windowSize) (hl : 0 < s.options.maxEpoch ∨ 0 < s.options.logStep) (hp : ∀ g, s.parameters g ≠ []) (W G : Nat)
    (hG : 0 < G) (h : G < W) (losses : Nat → Nat → K) : AlwaysFinishes W (reconstruction s W G fun _ => losses) := by
  obtain ⟨T, -, hi, -⟩ := C88_nested_iff s hw hl hp W G hG h (fun _ => losses)
  exact hi.2 fun r r' g _ _ _ => (sameEpochs_iff _ _ hw hl _ _).2 rfl

example : AlwaysFinishes 5 (reconstruction setting 5 2 fun _ g i => g + 1 / (i + 1 : ℚ)) :=
  C88_nested_partial setting (by decide) (.inl (by decide)) (by simp [setting]) 5 2 (by decide) (by decide) fun g i => g + 1 / (i + 1 : ℚ)

/-- C88 is false with more processes than heliostat groups: if, in the first epoch, the loss of one process is within the tolerance and that of another process of the same heliostat group
is not, the reconstruction never finishes. -/
theorem C88_nested_hangs (s : Setting K) (hw : 0 < s.stopping.windowSize) (hmax : 0 < s.options.maxEpoch) (hp : ∀ g, s.parameters g ≠ []) (W G : Nat)
    (hG : 0 < G) (h : G < W) (losses : Nat → Nat → Nat → K) (T : List (List Nat)) (hT : distribute W G = .ok (T, true)) (r r' g : Nat) (hr : WorksOn T r g) (hr' : WorksOn T r' g)
    (hg : s.measured g = true) (hle : losses r g 0 ≤ s.options.tolerance) (hgt : s.options.tolerance < losses r' g 0) (hf : ¬ Loop.FiresAt s.stopping (losses r' g) 0) :
    NeverFinishes W (reconstruction s W G losses) := by
  obtain ⟨T', hT', h1, h2⟩ := C88_nested_iff s hw (.inl hmax) hp W G hG h losses
  obtain rfl : T = T' := by rw [hT] at hT'; simpa using hT'
  apply h2
  intro ha
  obtain ⟨n, ⟨a1, a2, a3, a4⟩, ⟨b1, b2, b3, b4⟩⟩ := h1.1 ha r r' g hr hr' hg
  have hn : n = 1 := by
    by_contra hne
    exact absurd (a3 0 (by omega)).1 (not_lt.2 hle)
  subst hn
  rcases b4 with b4 | b4 | b4
  · exact absurd b4 (not_le.2 hgt)
  · exact hf b4
  · omega

example : NeverFinishes 3 (reconstruction setting 3 2 fun r _ _ => if r = 0 then 1 / 4 else 1) := by
  refine C88_nested_hangs setting (by decide) (by decide) (by simp [setting]) 3 2 (by decide) (by decide) _ [[0], [1], [0]] (by decide) 0 2 0 ⟨[0], rfl, by simp⟩ ⟨[0], rfl, by simp⟩ rfl
    (by norm_num [setting]) (by norm_num [setting]) ?_
  rintro ⟨h, -⟩
  simp [setting] at h

/-- C88 for the aim point optimisation with at most as many processes as heliostat groups, exactly: it finishes if and only if all processes leave the loop after the same number of epochs
and the groups of every process have, one after the other, the same numbers of motor positions; otherwise it never finishes. -/
theorem C88_aim_iff (o : Loop.Options K) (c : Training.Config K) (hw : 0 < c.windowSize) (hl : 0 < o.maxEpoch ∨ 0 < o.logStep) (pixels : Nat) (motors : Nat → Nat)
    (hshape : ∀ g, motors g ≠ pixels) (W G : Nat) (hW : 0 < W) (h : W ≤ G) (losses : Nat → Nat → K) :
    ∃ T, distribute W G = .ok (T, false) ∧
      (AlwaysFinishes W (aimPoints o c pixels motors W G losses) ↔
        ∀ r r' gs gs', T[r]? = some gs → T[r']? = some gs' → SameEpochs o c (losses r) (losses r') ∧ gs.map motors = gs'.map motors) ∧
      (¬ AlwaysFinishes W (aimPoints o c pixels motors W G losses) → NeverFinishes W (aimPoints o c pixels motors W G losses)) := by
  obtain ⟨T, hT, hlen, -⟩ := distribute_flat W G hW h
  refine ⟨T, hT, ?_, ?_⟩
  swap
  · intro hn
    rw [never_iff]
    rintro ⟨L, hL⟩
    exact hn (always_of_lin hL)
  let final : List Call := (List.range G).map fun g => ⟨.world, .broadcast, motors g⟩
  let body : Nat → List Call := fun r => ⟨.world, .sum, pixels⟩ :: ⟨.world, .sum, pixels⟩ :: (T.getD r []).map fun g => ⟨.world, .sum, motors g⟩
  let e : Nat → Nat := fun r => aimEpochs o c (losses r)
  have hcalls : ∀ r, r < W → aimPoints o c pixels motors W G losses r = (List.replicate (e r) (body r)).flatten ++ final := by
    intro r hr
    simp only [aimPoints, if_pos hr, hT, aimCalls, e, body, final]
  have hout : ∀ r, W ≤ r → aimPoints o c pixels motors W G losses r = [] := fun r hr => by rw [aimPoints, if_neg (by omega)]
  have hworld : ∀ r, ∀ d ∈ aimPoints o c pixels motors W G losses r, d.comm = .world := by
    intro r d hd
    by_cases hr : r < W
    · rw [hcalls r hr] at hd
      simp only [List.mem_append, List.mem_flatten, List.mem_replicate, final, List.mem_map] at hd
      rcases hd with ⟨l, ⟨-, rfl⟩, hd⟩ | ⟨g, -, rfl⟩
      · simp only [body, List.mem_cons, List.mem_map] at hd
        rcases hd with rfl | rfl | ⟨g, -, rfl⟩ <;> rfl
      · rfl
    · rw [hout r (by omega)] at hd
      simp at hd
  have hiff : AlwaysFinishes W (aimPoints o c pixels motors W G losses) ↔
      ∀ r r', r < W → r' < W → aimPoints o c pixels motors W G losses r = aimPoints o c pixels motors W G losses r' := by
    rw [← lin_world hW hworld hout]
    exact ⟨lin_of_always, fun ⟨L, hL⟩ => always_of_lin hL⟩
  rw [hiff]
  have hget : ∀ r, r < W → T[r]? = some (T.getD r []) := by
    intro r hr
    rw [List.getD_eq_getElem?_getD, List.getElem?_eq_getElem (by omega)]
    rfl
  have hpos : ∀ r, 0 < e r := fun r => (aimEpochs_spec o c hw hl (losses r)).1
  have hsplit : ∀ r, r < W → ∀ r', r' < W → ((List.replicate (e r) (body r)).flatten ++ final = (List.replicate (e r') (body r')).flatten ++ final ↔ e r = e r' ∧ body r = body r') := by
    intro r _ r' _
    constructor
    · intro heq
      have heq := List.append_cancel_right heq
      have hlenf : ∀ n (l : List Call), (List.replicate n l).flatten.length = n * l.length := fun n l => by simp
      have hcount : ∀ n q, (List.replicate n (body q)).flatten.countP (fun d => decide (d.size = pixels)) = n * 2 := by
        intro n q
        induction n with
        | zero => simp
        | succ n ih =>
          rw [List.replicate_succ, List.flatten_cons, List.countP_append, ih]
          have : ((T.getD q []).map fun g => (⟨.world, .sum, motors g⟩ : Call)).countP (fun d => decide (d.size = pixels)) = 0 := by
            rw [List.countP_eq_zero]
            intro d hd
            obtain ⟨g, -, rfl⟩ := List.mem_map.1 hd
            simpa using hshape g
          simp only [body, List.countP_cons, this, decide_true, if_true]
          omega
      have he : e r = e r' := by
        have h1 := hcount (e r) r
        rw [heq, hcount] at h1
        omega
      refine ⟨he, ?_⟩
      have hl' := congrArg List.length heq
      rw [hlenf, hlenf, he] at hl'
      have hl'' := Nat.eq_of_mul_eq_mul_left (hpos r') hl'
      rw [he] at heq
      obtain ⟨k, hk⟩ : ∃ k, e r' = k + 1 := ⟨e r' - 1, by have := hpos r'; omega⟩
      rw [hk, List.replicate_succ, List.replicate_succ, List.flatten_cons, List.flatten_cons] at heq
      exact (List.append_inj heq hl'').1
    · rintro ⟨h1, h2⟩
      rw [h1, h2]
  have hbody : ∀ r r', body r = body r' ↔ (T.getD r []).map motors = (T.getD r' []).map motors := by
    intro r r'
    simp only [body, List.cons.injEq, true_and]
    constructor
    · intro h1
      have := congrArg (List.map Call.size) h1
      simpa [Function.comp_def] using this
    · intro h1
      have := congrArg (List.map fun n => (⟨.world, .sum, n⟩ : Call)) h1
      simpa [Function.comp_def] using this
  constructor
  · intro hall r r' gs gs' hg hg'
    have hr : r < W := by rw [← hlen]; exact (List.getElem?_eq_some_iff.1 hg).1
    have hr' : r' < W := by rw [← hlen]; exact (List.getElem?_eq_some_iff.1 hg').1
    have := hall r r' hr hr'
    rw [hcalls r hr, hcalls r' hr', hsplit r hr r' hr', hbody] at this
    rw [hget r hr] at hg
    rw [hget r' hr'] at hg'
    obtain rfl := Option.some.inj hg
    obtain rfl := Option.some.inj hg'
    exact ⟨(sameEpochs_aim_iff o c hw hl _ _).2 this.1, this.2⟩
  · intro hall r r' hr hr'
    obtain ⟨h1, h2⟩ := hall r r' _ _ (hget r hr) (hget r' hr')
    rw [hcalls r hr, hcalls r' hr', hsplit r hr r' hr', hbody]
    exact ⟨(sameEpochs_aim_iff o c hw hl _ _).1 h1, h2⟩

/-- C88 for the aim point optimisation if the loss is the same on all processes (it is a function of the flux of all processes) and every process has equally many groups of the same size:
it always finishes. -/
theorem C88_aim_partial (o : Loop.Options K) (c : Training.Config K) (hw : 0 < c.windowSize) (hl : 0 < o.maxEpoch ∨ 0 < o.logStep) (pixels n : Nat) (hn : n ≠ pixels) (W q : Nat)
    (hW : 0 < W) (hq : 0 < q) (losses : Nat → K) : AlwaysFinishes W (aimPoints o c pixels (fun _ => n) W (q * W) (fun _ => losses)) := by
  have h : W ≤ q * W := Nat.le_mul_of_pos_left W hq
  obtain ⟨T, hT, hi, -⟩ := C88_aim_iff o c hw hl pixels (fun _ => n) (fun _ => hn) W (q * W) hW h (fun _ => losses)
  refine hi.2 ?_
  obtain ⟨T', hT', hlen, hrow⟩ := distribute_flat W (q * W) hW h
  obtain rfl : T = T' := by rw [hT] at hT'; simpa using hT'
  intro r r' gs gs' hg hg'
  refine ⟨(sameEpochs_aim_iff o c hw hl _ _).2 rfl, ?_⟩
  have hlen' : ∀ (r : Nat) (gs : List Nat), T[r]? = some gs → gs.length = q := by
    intro r gs hg
    have hr : r < W := by rw [← hlen]; exact (List.getElem?_eq_some_iff.1 hg).1
    rw [hrow r hr] at hg
    obtain rfl := Option.some.inj hg
    rw [← List.countP_eq_length_filter, countP_residue W r hr]
    rw [Nat.add_comm, Nat.add_mul_div_right _ _ hW, Nat.div_eq_of_lt (by omega), Nat.zero_add]
  rw [List.map_const', List.map_const', hlen' r gs hg, hlen' r' gs' hg']

example : AlwaysFinishes 2 (aimPoints (K := ℚ) ⟨1 / 2, 10, 5⟩ ⟨2, 3, 0, false, 1 / 100⟩ 65536 (fun _ => 8) 2 4 fun _ i => 1 / (i + 1)) :=
  C88_aim_partial _ _ (by decide) (.inl (by decide)) _ _ (by decide) 2 2 (by decide) (by decide) _

/-- C88 is false for the aim point optimisation if the numbers of groups per process differ. -/
theorem C88_aim_uneven_hangs (o : Loop.Options K) (c : Training.Config K) (hw : 0 < c.windowSize) (hl : 0 < o.maxEpoch ∨ 0 < o.logStep) (pixels : Nat) (motors : Nat → Nat)
    (hshape : ∀ g, motors g ≠ pixels) (W G : Nat) (hW : 0 < W) (h : W ≤ G) (hd : ¬ W ∣ G) (losses : Nat → Nat → K) : NeverFinishes W (aimPoints o c pixels motors W G losses) := by
  obtain ⟨T, hT, hi, hnever⟩ := C88_aim_iff o c hw hl pixels motors hshape W G hW h losses
  apply hnever
  intro ha
  obtain ⟨T', hT', hlen, hrow⟩ := distribute_flat W G hW h
  obtain rfl : T = T' := by rw [hT] at hT'; simpa using hT'
  have h1 := (hi.1 ha 0 (W - 1) _ _ (hrow 0 hW) (hrow (W - 1) (by omega))).2
  have h2 := congrArg List.length h1
  rw [List.length_map, List.length_map, ← List.countP_eq_length_filter, ← List.countP_eq_length_filter, countP_residue W 0 hW, countP_residue W (W - 1) (by omega)] at h2
  have hk : 0 < G % W := Nat.pos_of_ne_zero (fun h0 => hd (Nat.dvd_of_mod_eq_zero h0))
  have hkW : G % W < W := Nat.mod_lt _ hW
  have e1 : (G + (W - 1 - 0)) / W = G / W + 1 := by
    have : G + (W - 1 - 0) = (G % W - 1) + (G / W + 1) * W := by
      have := Nat.div_add_mod G W
      rw [Nat.add_mul, Nat.mul_comm (G / W)]
      omega
    rw [this, Nat.add_mul_div_right _ _ hW, Nat.div_eq_of_lt (by omega)]
    omega
  have e2 : (G + (W - 1 - (W - 1))) / W = G / W := by simp
  omega

example : NeverFinishes 2 (aimPoints (K := ℚ) ⟨1 / 2, 10, 5⟩ ⟨2, 3, 0, false, 1 / 100⟩ 65536 (fun _ => 8) 2 3 fun _ i => 1 / (i + 1)) :=
  C88_aim_uneven_hangs _ _ (by decide) (.inl (by decide)) _ _ (by simp) 2 3 (by decide) (by decide) (by decide) _

/-- C88 is false for the aim point optimisation if one process sees a loss within the tolerance in the first epoch and another one does not (the penalty for lost intercept is computed by
every process from its own heliostats). -/
theorem C88_aim_hangs (o : Loop.Options K) (c : Training.Config K) (hw : 0 < c.windowSize) (hmax : 0 < o.maxEpoch) (pixels : Nat) (motors : Nat → Nat)
    (hshape : ∀ g, motors g ≠ pixels) (W G : Nat) (h : W ≤ G) (losses : Nat → Nat → K) (r r' : Nat) (hr : r < W) (hr' : r' < W)
    (hle : losses r 0 ≤ o.tolerance) (hgt : o.tolerance < losses r' 0) (hf : ¬ Loop.FiresAt c (losses r') 0) : NeverFinishes W (aimPoints o c pixels motors W G losses) := by
  obtain ⟨T, hT, hi, hnever⟩ := C88_aim_iff o c hw (.inl hmax) pixels motors hshape W G (by omega) h losses
  apply hnever
  intro ha
  obtain ⟨T', hT', hlen, hrow⟩ := distribute_flat W G (by omega) h
  obtain rfl : T = T' := by rw [hT] at hT'; simpa using hT'
  obtain ⟨n, ⟨a1, a2, a3, a4⟩, ⟨b1, b2, b3, b4⟩⟩ := (hi.1 ha r r' _ _ (hrow r hr) (hrow r' hr')).1
  have hn : n = 1 := by
    by_contra hne
    exact absurd (a3 0 (by omega)).1 (not_lt.2 hle)
  subst hn
  rcases b4 with b4 | b4 | b4
  · exact absurd b4 (not_le.2 hgt)
  · exact hf b4
  · omega

example : NeverFinishes 2 (aimPoints (K := ℚ) ⟨1 / 2, 10, 5⟩ ⟨2, 3, 0, false, 1 / 100⟩ 65536 (fun _ => 8) 2 4 fun r i => if r = 0 then 1 / 4 else 1 / (i + 1)) := by
  refine C88_aim_hangs _ _ (by decide) (by decide) _ _ (by simp) 2 4 (by decide) _ 0 1 (by decide) (by decide) (by norm_num) (by norm_num) ?_
  rintro ⟨h, -⟩
  simp at h

end Artist.Lockstep
