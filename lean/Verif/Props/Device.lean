import Verif.Spec.Device
import Mathlib.Data.Nat.ModEq
import Mathlib.Data.Nat.GCD.Basic
/-! C137: on which device a process computes. -/
namespace Artist.Device
open Artist

/-- C137: a given device is kept, so that asking again with the answer changes nothing. -/
theorem C137_given (c c' : Computer) (d : Dev) (e : Option Dev) : getDevice c (some d) = d ∧ getDevice c' (some (getDevice c e)) = getDevice c e := ⟨rfl, rfl⟩

/-- C137: without a given device it is a GPU exactly on Linux and Windows with CUDA, otherwise the CPU; no number is chosen. -/
theorem C137_default (c : Computer) : getDevice c none = (if (c.os = "Linux" ∨ c.os = "Windows") ∧ c.available = true then ⟨.cuda, none⟩ else ⟨.cpu, none⟩) := by
  unfold getDevice
  by_cases h : c.os = "Linux" ∨ c.os = "Windows" <;> cases c.available <;> simp [h]

/-- C137: processes talk by NCCL exactly if they compute on GPUs; a process that cannot join this way runs as the only one, on the device it was given, even if it could join the other way. -/
theorem C137_alone (c : Computer) (d : Option Dev) (join : Backend → Option (Nat × Nat)) (h : join (if (getDevice c d).kind = .cuda then .nccl else .gloo) = none) :
    ∃ s, start c d join = .ok s ∧ s.device = getDevice c d ∧ s.isDistributed = false ∧ s.rank = 0 ∧ s.worldSize = 1 := by
  refine ⟨⟨getDevice c d, false, 0, 1, 0⟩, ?_, rfl, rfl, rfl, rfl⟩
  simp only [start, h]

/-- C137: a process that joins a group computes on the GPU with its rank modulo the number of GPUs, whichever GPU it was given. -/
theorem C137_joined (c : Computer) (d : Option Dev) (r w : Nat) (hc : 0 < c.count) (hd : (getDevice c d).kind = .cuda) :
    ∃ s, start c d (joining r w) = .ok s ∧ s.isDistributed = true ∧ s.rank = r ∧ s.worldSize = w ∧ s.device.kind = .cuda ∧ s.gpu = r % c.count ∧ s.gpu < c.count := by
  refine ⟨⟨⟨.cuda, some (r % c.count)⟩, true, r, w, r % c.count⟩, ?_, rfl, rfl, rfl, rfl, rfl, Nat.mod_lt _ hc⟩
  simp only [start, joining, hd, if_true, if_neg hc.ne']

/-- C137: other devices are kept by a process that joins a group. -/
theorem C137_joined_other (c : Computer) (d : Option Dev) (r w : Nat) (hd : (getDevice c d).kind ≠ .cuda) :
    ∃ s, start c d (joining r w) = .ok s ∧ s.isDistributed = true ∧ s.rank = r ∧ s.worldSize = w ∧ s.device = getDevice c d := by
  refine ⟨⟨getDevice c d, true, r, w, 0⟩, ?_, rfl, rfl, rfl, rfl⟩
  simp only [start, joining, if_neg hd]

/-- C137: a process that was given a GPU on a computer without GPUs and joins a group stops with a division by zero. -/
theorem C137_no_gpu (c : Computer) (d : Dev) (r w : Nat) (hc : c.count = 0) (hd : d.kind = .cuda) : start c (some d) (joining r w) = .error .zeroDivision := by
  simp only [start, joining, getDevice, hd, if_true, if_pos hc]

/-- C137: processes with consecutive ranks, no more than there are GPUs, compute on different GPUs of their computer, whichever rank is the first. -/
theorem C137_consecutive (c : Computer) (d : Option Dev) (hc : 0 < c.count) (hd : (getDevice c d).kind = .cuda) (first w r r' : Nat) (hr : first ≤ r ∧ r < first + c.count)
    (hr' : first ≤ r' ∧ r' < first + c.count) (s s' : Started) (h : start c d (joining r w) = .ok s) (h' : start c d (joining r' w) = .ok s') (same : s.gpu = s'.gpu) : r = r' := by
  obtain ⟨t, e, _, _, _, _, g, _⟩ := C137_joined c d r w hc hd
  obtain ⟨t', e', _, _, _, _, g', _⟩ := C137_joined c d r' w hc hd
  obtain rfl : t = s := by rw [e] at h; exact Except.ok.inj h
  obtain rfl : t' = s' := by rw [e'] at h'; exact Except.ok.inj h'
  rw [g, g'] at same
  have key : ∀ a b : Nat, first ≤ a → a ≤ b → b < first + c.count → a % c.count = b % c.count → a = b := by
    intro a b ha hab hb e
    have := (Nat.modEq_iff_dvd' hab).1 e
    have := Nat.eq_zero_of_dvd_of_lt this (by omega)
    omega
  rcases le_total r r' with l | l
  · exact key r r' hr.1 l hr'.2 same
  · exact (key r' r hr'.1 l hr.2 same.symm).symm

/-- C137: if ranks are dealt to computers in turn, computer `j` of `n` gets `j`, `n + j`, `2 n + j` and so on.  Its processes, as many as it has GPUs, compute on different GPUs exactly if the number of computers
and the number of GPUs of each have no common divisor. -/
theorem C137_in_turn (c : Computer) (d : Option Dev) (hc : 0 < c.count) (hd : (getDevice c d).kind = .cuda) (n j w : Nat) :
    (∀ k k', k < c.count → k' < c.count → ∀ s s', start c d (joining (k * n + j) w) = .ok s → start c d (joining (k' * n + j) w) = .ok s' → s.gpu = s'.gpu → k = k') ↔ Nat.Coprime n c.count := by
  have gpu : ∀ r s, start c d (joining r w) = .ok s → s.gpu = r % c.count := by
    intro r s h
    obtain ⟨t, e, _, _, _, _, g, _⟩ := C137_joined c d r w hc hd
    obtain rfl : t = s := by rw [e] at h; exact Except.ok.inj h
    exact g
  constructor
  · intro h
    by_contra nc
    have g0 : 0 < Nat.gcd n c.count := Nat.gcd_pos_of_pos_right _ hc
    have g1 : 1 < Nat.gcd n c.count := by
      have : Nat.gcd n c.count ≠ 1 := nc
      omega
    obtain ⟨s, e, _⟩ := C137_joined c d (c.count / Nat.gcd n c.count * n + j) w hc hd
    obtain ⟨s', e', _⟩ := C137_joined c d (0 * n + j) w hc hd
    have z := h (c.count / Nat.gcd n c.count) 0 (Nat.div_lt_self hc g1) hc s s' e e' (by
      rw [gpu _ _ e, gpu _ _ e', zero_mul, zero_add]
      have : c.count / Nat.gcd n c.count * n = c.count * (n / Nat.gcd n c.count) := by
        rw [Nat.div_mul_right_comm (Nat.gcd_dvd_right _ _), Nat.mul_div_assoc _ (Nat.gcd_dvd_left _ _)]
      rw [this, Nat.mul_add_mod])
    have := Nat.div_pos (Nat.le_of_dvd hc (Nat.gcd_dvd_right n c.count)) g0
    omega
  · intro co k k' hk hk' s s' e e' same
    rw [gpu _ _ e, gpu _ _ e'] at same
    have m : k * n ≡ k' * n [MOD c.count] := Nat.ModEq.add_right_cancel' j same
    have m2 : k ≡ k' [MOD c.count] := Nat.ModEq.cancel_right_of_coprime (by rw [Nat.gcd_comm]; exact co) m
    rwa [Nat.ModEq, Nat.mod_eq_of_lt hk, Nat.mod_eq_of_lt hk'] at m2

/-- C137: after the environment has been set up on a computer with GPUs, functions that are called without a device put their tensors where those are that are called with the device of the environment, unless the
process runs alone on a device that was given. -/
theorem C137_omitted (c : Computer) (hc : c.HasGpus) (d : Option Dev) (hd : (getDevice c d).kind = .cuda) (join : Backend → Option (Nat × Nat)) (s : Started) (h : start c d join = .ok s)
    (ok : s.isDistributed = true ∨ d = none) : place (getDevice c none) s.current = place s.device s.current := by
  have g : getDevice c none = ⟨.cuda, none⟩ := by rw [C137_default, if_pos ⟨hc.1, hc.2.1⟩]
  rw [g]
  simp only [start, hd, if_true, if_neg hc.2.2.ne'] at h
  split at h
  · cases h
    rcases ok with k | rfl
    · exact absurd k (by simp)
    · rw [g]
  · cases h
    rfl

/-- C137: a process that runs alone with a given GPU: functions that are called without a device use it exactly if it is the first one. -/
theorem C137_omitted_alone (c : Computer) (hc : c.HasGpus) (i : Nat) (join : Backend → Option (Nat × Nat)) (hj : join .nccl = none) (s : Started) (h : start c (some ⟨.cuda, some i⟩) join = .ok s) :
    place (getDevice c none) s.current = place s.device s.current ↔ i = 0 := by
  have g : getDevice c none = ⟨.cuda, none⟩ := by rw [C137_default, if_pos ⟨hc.1, hc.2.1⟩]
  rw [g]
  simp only [start, getDevice, if_true, hj] at h
  cases h
  simp [place, eq_comm]

/-- a Linux computer with four GPUs; two of them and eight ranks in turn; one that is alone with its second GPU -/
example : (Computer.mk "Linux" true 4).HasGpus ∧ (getDevice ⟨"Linux", true, 4⟩ none).kind = .cuda ∧ ¬ Nat.Coprime 2 4 ∧ Nat.Coprime 3 4 ∧
    (start ⟨"Linux", true, 4⟩ none (joining 2 8)).map Started.gpu = .ok 2 ∧ (start ⟨"Linux", true, 4⟩ none (joining 6 8)).map Started.gpu = .ok 2 ∧
    (start ⟨"Linux", true, 4⟩ (some ⟨.cuda, some 1⟩) (fun _ => none)).map (fun s => (place (getDevice ⟨"Linux", true, 4⟩ none) s.current, place s.device s.current)) = .ok ((.cuda, 0), (.cuda, 1)) ∧
    getDevice ⟨"Darwin", true, 4⟩ none = ⟨.cpu, none⟩ := by
  refine ⟨⟨.inl rfl, rfl, by decide⟩, by decide, by decide, by decide, by decide, by decide, by decide, by decide⟩

end Artist.Device
