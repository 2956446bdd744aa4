import Verif.Lemmas.Growing
import Verif.Lemmas.Default
import Verif.Props.Foreground

/-!
# C69: input that comes in piece by piece
-/

namespace Dash7
open Sample

/-! ## Lemmas -/

theorem Rd.new_ext (data t : List U8) : Rd.new (data ++ t) = (Rd.new data).ext t := rfl

theorem Rd.new_counts (data : List U8) : (Rd.new data).cur ≤ (Rd.new data).bitsRead := by simp [Rd.cur, Rd.new]

/-- At the end of the input all of it is counted. -/
theorem Rd.OK.counted {r : Rd} (h : r.OK) (hc : r.cur ≤ r.bitsRead) (he : r.rem = []) :
    8 * r.data.length ≤ r.bitsRead := by
  have := h.rem_cur
  rw [he] at this
  simp at this
  omega

theorem startAt_grows {α : Type} {m : R α} {pre : α → α → Prop} (off : Nat) (h : m.Grows pre) :
    (startAt off m).Grows pre := by
  unfold startAt
  split
  · exact R.Grows.after fun _ => h
  · exact h

theorem derived_refused {α : Type} {m : R α} {pre : α → α → Prop} (hg : m.Grows pre)
    (hc : m.Counts ∨ ∀ a b, ¬ pre a b) {data : List U8} {f : Fault}
    (h : derivedTryFrom m data = .error (.fault f)) :
    (∀ more, derivedTryFrom m (data ++ more) = .error (.fault f)) ∨
      derivedFromBytes m (data, 0) = .error (.fault .panic) := by
  have hok := (Rd.new_con data).toOK
  cases hm : m (Rd.new data) with
  | error e =>
    left
    simp only [derivedTryFrom, hm] at h
    cases h
    intro t
    rw [derivedTryFrom, Rd.new_ext, hg.fault hok hm t]
  | ok p =>
    obtain ⟨a, r⟩ := p
    obtain ⟨o, hd, hx⟩ := hg.ok hok hm
    simp only [derivedTryFrom, hm] at h
    split at h
    · rename_i hne
      cases h
      by_cases hlt : r.bitsRead / 8 < data.length
      · left
        intro t
        have hsame : m ((Rd.new data).ext t) = .ok (a, r.ext t) := by
          rcases hx with hx | ⟨he, hx⟩
          · exact hx t
          · exfalso
            rcases hc with hc | hc
            · have := o.counted (hc _ _ _ hok (Rd.new_counts data) hm) he
              rw [hd] at this
              simp only [Rd.new] at this
              omega
            · exact hc _ _ (hx [] a r (by
                have : (Rd.new data).ext [] = Rd.new data := by simp [Rd.ext, Rd.new]
                rw [this, hm]))
        rw [derivedTryFrom, Rd.new_ext, hsame]
        dsimp only
        rw [if_pos]
        simp only [Rd.ext, List.length_append]
        omega
      · right
        have h0 : startAt 0 m = m := rfl
        simp only [derivedFromBytes, h0, hm, sliceFrom]
        rw [if_neg (by omega)]
    · cases h

theorem derived_cut {α : Type} {m : R α} {pre : α → α → Prop} (hg : m.Grows pre) {data more : List U8} {b : α}
    (hne : more ≠ []) (hc : m.Counts ∨ ∀ a b, ¬ pre a b) (h : derivedTryFrom m (data ++ more) = .ok b) :
    derivedTryFrom m data = .error .incomplete ∨ (∃ a, derivedTryFrom m data = .ok a ∧ pre a b) ∨
      derivedTryFrom m data = .error (.fault .parse) ∧ derivedFromBytes m (data, 0) = .error (.fault .panic) := by
  have hok := (Rd.new_con data).toOK
  have hpos := List.length_pos_iff.2 hne
  have h0 : startAt 0 m = m := rfl
  unfold derivedTryFrom at h
  rw [Rd.new_ext] at h
  cases hm : m (Rd.new data) with
  | error e =>
    cases e with
    | incomplete => left; rw [derivedTryFrom, hm]
    | fault f => rw [hg.fault hok hm more] at h; cases h
  | ok p =>
    obtain ⟨a, r⟩ := p
    obtain ⟨o, hd, hx⟩ := hg.ok hok hm
    have refused : data.length < r.bitsRead / 8 → derivedTryFrom m data = .error (.fault .parse) ∧
        derivedFromBytes m (data, 0) = .error (.fault .panic) := by
      intro hlt
      constructor
      · rw [derivedTryFrom, hm]
        dsimp only
        rw [if_pos (by omega)]
      · simp only [derivedFromBytes, h0, hm, sliceFrom]
        rw [if_neg (by omega)]
    rcases hx with hx | ⟨he, hx⟩
    · rw [hx more] at h
      dsimp only at h
      split at h
      · cases h
      · rename_i hn
        refine .inr (.inr (refused ?_))
        simp only [Rd.ext, List.length_append, Decidable.not_not] at hn
        omega
    · cases hl : m ((Rd.new data).ext more) with
      | error e => rw [hl] at h; cases h
      | ok q =>
        obtain ⟨b', r''⟩ := q
        rw [hl] at h
        dsimp only at h
        split at h
        · cases h
        · cases h
          have hp := hx more _ _ hl
          rcases hc with hc | hc
          · have hn := o.counted (hc _ _ _ hok (Rd.new_counts data) hm) he
            rw [hd] at hn
            simp only [Rd.new] at hn
            by_cases hlt : data.length < r.bitsRead / 8
            · exact .inr (.inr (refused hlt))
            · refine .inr (.inl ⟨a, ?_, hp⟩)
              rw [derivedTryFrom, hm]
              dsimp only
              rw [if_neg (by omega)]
          · exact (hc _ _ hp).elim

/-! ## Commands -/

/-- **C69** A command once refused is refused however the input goes on, with the same error. -/
theorem C69_command_refused (cfg : Cfg) (data more : List U8) (e : Err) (he : e ≠ .incomplete)
    (h : Command.tryFrom cfg data = .error e) : Command.tryFrom cfg (data ++ more) = .error e := by
  have hok := (Rd.new_con data).toOK
  have h0 : startAt 0 (Command.read cfg 0) = Command.read cfg 0 := rfl
  unfold Command.tryFrom Command.fromBytes fromBytes at h ⊢
  simp only [h0] at h ⊢
  rw [Rd.new_ext]
  cases hm : Command.read cfg 0 (Rd.new data) with
  | error e' =>
    rw [hm] at h
    dsimp only at h
    cases h
    cases e with
    | incomplete => exact (he rfl).elim
    | fault f => rw [(Command.read_grows cfg 0).fault hok hm more]
  | ok p =>
    obtain ⟨c, r⟩ := p
    obtain ⟨o, hd, hx⟩ := (Command.read_grows cfg 0).ok hok hm
    rw [hm] at h
    dsimp only at h
    have hlt : r.bitsRead < data.length * 8 := by
      rcases Nat.lt_or_ge r.bitsRead (data.length * 8) with hlt | hge
      · exact hlt
      · rw [padRest, if_pos (by simpa using hge)] at h
        simp at h
    have hsame : Command.read cfg 0 ((Rd.new data).ext more) = .ok (c, r.ext more) := by
      rcases hx with hx | ⟨he', -⟩
      · exact hx more
      · have := o.counted (Command.read_counts cfg _ _ _ hok (Rd.new_counts data) hm) he'
        rw [hd] at this
        simp only [Rd.new] at this
        omega
    have pad : ∀ d : List U8, r.bitsRead < d.length * 8 →
        padRest (d, 0) r.bitsRead = .ok (d.drop (r.bitsRead / 8), r.bitsRead % 8) := by
      intro d hd
      have hi : (if r.bitsRead % 8 = 0 then r.bitsRead / 8 else (r.bitsRead - r.bitsRead % 8) / 8) =
          r.bitsRead / 8 := by
        split
        · rfl
        · omega
      rw [padRest, if_neg (by simpa using hd)]
      simp only [hi, sliceFrom]
      rw [if_pos (by omega)]
    rw [pad data hlt] at h
    rw [hsame]
    have hlt' : r.bitsRead < (data ++ more).length * 8 := by rw [List.length_append]; omega
    simp only [Rd.ext]
    rw [pad _ hlt']
    dsimp only at h ⊢
    rw [if_pos (by simp; omega)] at h
    rw [if_pos (by simp only [ne_eq, List.drop_eq_nil_iff]; omega)]
    exact h

/-- **C69** Every beginning of the bytes of a command is incomplete, or holds the first actions of the command. -/
theorem C69_command_cut (cfg : Cfg) (data more : List U8) (c : Command) (h : Command.tryFrom cfg (data ++ more) = .ok c) :
    Command.tryFrom cfg data = .error .incomplete ∨
      ∃ d, Command.tryFrom cfg data = .ok d ∧ d.actions <+: c.actions := by
  cases hd : Command.tryFrom cfg data with
  | error e =>
    left
    cases e with
    | incomplete => rfl
    | fault f => rw [C69_command_refused cfg data more _ (by simp) hd] at h; cases h
  | ok d =>
    right
    refine ⟨d, rfl, ?_⟩
    obtain ⟨n, h1⟩ := Command.tryFrom_fromBytes hd
    obtain ⟨n', h2⟩ := Command.tryFrom_fromBytes h
    have hok := (Rd.new_con data).toOK
    have h0 : startAt 0 (Command.read cfg 0) = Command.read cfg 0 := rfl
    unfold Command.fromBytes fromBytes at h1 h2
    simp only [h0] at h1 h2
    rw [Rd.new_ext] at h2
    cases hm : Command.read cfg 0 (Rd.new data) with
    | error e => rw [hm] at h1; cases h1
    | ok p =>
      obtain ⟨d', r⟩ := p
      obtain rfl : d' = d := by
        rw [hm] at h1
        dsimp only at h1
        split at h1 <;> cases h1
        rfl
      obtain ⟨o, -, hx⟩ := (Command.read_grows cfg 0).ok hok hm
      cases hl : Command.read cfg 0 ((Rd.new data).ext more) with
      | error e => rw [hl] at h2; cases h2
      | ok q =>
        obtain ⟨c', r''⟩ := q
        obtain rfl : c' = c := by
          rw [hl] at h2
          dsimp only at h2
          split at h2 <;> cases h2
          rfl
        rcases hx with hx | ⟨-, hx⟩
        · rw [hx more] at hl
          cases hl
          exact List.prefix_rfl
        · exact hx more _ _ hl

/-- **C69** `from_reader`, from any bit offset: a refusal stays. -/
theorem C69_command_reader (cfg : Cfg) (data more : List U8) (off : Nat) (e : Err) (he : e ≠ .incomplete)
    (h : Command.fromReader cfg data off = .error e) : Command.fromReader cfg (data ++ more) off = .error e := by
  have hok := (Rd.new_con data).toOK
  unfold Command.fromReader fromReader at h ⊢
  rw [Rd.new_ext]
  cases hm : startAt off (Command.read cfg 0) (Rd.new data) with
  | error e' =>
    rw [hm] at h
    cases h
    cases e with
    | incomplete => exact (he rfl).elim
    | fault f => rw [(startAt_grows off (Command.read_grows cfg 0)).fault hok hm more]
  | ok p => rw [hm] at h; cases h

/-! ## Frames -/

/-- **C69** A frame once refused is refused however the input goes on, unless it is input on which `from_bytes` panics. -/
theorem C69_frame_refused_partial (cfg : Cfg) (data : List U8) (e : Err) (he : e ≠ .incomplete) :
    (ForegroundFrame.tryFrom cfg data = .error e → (∀ more, ForegroundFrame.tryFrom cfg (data ++ more) = .error e) ∨
      ForegroundFrame.fromBytes cfg (data, 0) = .error (.fault .panic)) ∧
    (Net.Frame.tryFrom cfg data = .error e → (∀ more, Net.Frame.tryFrom cfg (data ++ more) = .error e) ∨
      Net.Frame.fromBytes cfg (data, 0) = .error (.fault .panic)) ∧
    (Trans.Frame.tryFrom cfg data = .error e → (∀ more, Trans.Frame.tryFrom cfg (data ++ more) = .error e) ∨
      Trans.Frame.fromBytes cfg (data, 0) = .error (.fault .panic)) := by
  cases e with
  | incomplete => exact (he rfl).elim
  | fault f =>
    exact ⟨derived_refused (ForegroundFrame.read_grows cfg) (.inr fun _ _ h => h),
      derived_refused (Net.Frame.read_grows cfg 0) (.inl (Net.Frame.read_counts cfg)),
      derived_refused (Trans.Frame.read_grows cfg 0) (.inl (Trans.Frame.read_counts cfg))⟩

/-- **C69** No beginning of the bytes of a foreground frame is taken for a frame: it is incomplete, or it is refused and
`from_bytes` panics on it. -/
theorem C69_foreground_cut_partial (cfg : Cfg) (data more : List U8) (hm : more ≠ []) (f : ForegroundFrame)
    (h : ForegroundFrame.tryFrom cfg (data ++ more) = .ok f) :
    ForegroundFrame.tryFrom cfg data = .error .incomplete ∨
      ForegroundFrame.tryFrom cfg data = .error (.fault .parse) ∧
        ForegroundFrame.fromBytes cfg (data, 0) = .error (.fault .panic) := by
  rcases derived_cut (ForegroundFrame.read_grows cfg) hm (.inr fun _ _ h => h) h with h | ⟨_, _, h⟩ | h
  · exact .inl h
  · exact h.elim
  · exact .inr h

/-- **C69** The same for network and transport frames, whose beginnings may also be frames holding the first actions. -/
theorem C69_network_cut_partial (cfg : Cfg) (data more : List U8) (hm : more ≠ []) :
    (∀ f, Net.Frame.tryFrom cfg (data ++ more) = .ok f →
      Net.Frame.tryFrom cfg data = .error .incomplete ∨
        (∃ g, Net.Frame.tryFrom cfg data = .ok g ∧ Spec.continuesNetwork g f) ∨
        Net.Frame.tryFrom cfg data = .error (.fault .parse) ∧
          Net.Frame.fromBytes cfg (data, 0) = .error (.fault .panic)) ∧
    (∀ f, Trans.Frame.tryFrom cfg (data ++ more) = .ok f →
      Trans.Frame.tryFrom cfg data = .error .incomplete ∨
        (∃ g, Trans.Frame.tryFrom cfg data = .ok g ∧ Spec.continuesTransport g f) ∨
        Trans.Frame.tryFrom cfg data = .error (.fault .parse) ∧
          Trans.Frame.fromBytes cfg (data, 0) = .error (.fault .panic)) :=
  ⟨fun _ h => derived_cut (Net.Frame.read_grows cfg 0) hm (.inl (Net.Frame.read_counts cfg)) h,
    fun _ h => derived_cut (Trans.Frame.read_grows cfg 0) hm (.inl (Trans.Frame.read_counts cfg)) h⟩

/-- **C69** fails for foreground frames outside wizzilab: a frame asking for a file is refused and then accepted with one or
two bytes of padding behind it. Its beginning is thus refused, not incomplete. -/
theorem C69_foreground_violates (cfg : Cfg) (hv : cfg.variant ≠ .wizzilab) :
    ∃ (f : ForegroundFrame) (data more : List U8), f.toBytes cfg = .ok data ∧
      ForegroundFrame.tryFrom cfg data = .error (.fault .parse) ∧
      ForegroundFrame.tryFrom cfg (data ++ more) = .ok f := by
  have : ∀ cfg ∈ Cfg.all, cfg.variant ≠ .wizzilab →
      (match (Sample.foreground 29 ⟨[Sample.readData]⟩).toBytes cfg with
        | .error _ => false
        | .ok data => decide (ForegroundFrame.tryFrom cfg data = .error (.fault .parse)) &&
            [[0], [0, 0]].any fun more =>
              decide (ForegroundFrame.tryFrom cfg (data ++ more) = .ok (Sample.foreground 29 ⟨[Sample.readData]⟩))) =
        true := by decide +kernel
  have := this cfg (Cfg.mem_all cfg) hv
  split at this
  · cases this
  · rename_i data hd
    simp only [Bool.and_eq_true, decide_eq_true_eq, List.any_eq_true] at this
    obtain ⟨h1, more, -, h2⟩ := this
    exact ⟨_, data, more, hd, h1, h2⟩

/-- **C69** fails for network frames outside wizzilab likewise: one forwarding to an interface file is refused and then accepted
with up to three bytes behind it. -/
theorem C69_network_violates (cfg : Cfg) (hv : cfg.variant ≠ .wizzilab) :
    ∃ (f : Net.Frame) (data more : List U8), f.toBytes cfg = .ok data ∧
      Net.Frame.tryFrom cfg data = .error (.fault .parse) ∧ Net.Frame.tryFrom cfg (data ++ more) = .ok f := by
  have : ∀ cfg ∈ Cfg.all, cfg.variant ≠ .wizzilab →
      (match (Sample.foreground 29 ⟨[Sample.indirect]⟩).frame.toBytes cfg with
        | .error _ => false
        | .ok data => decide (Net.Frame.tryFrom cfg data = .error (.fault .parse)) &&
            [[0], [0, 0], [0, 0, 0]].any fun more =>
              decide (Net.Frame.tryFrom cfg (data ++ more) = .ok (Sample.foreground 29 ⟨[Sample.indirect]⟩).frame)) =
        true := by decide +kernel
  have := this cfg (Cfg.mem_all cfg) hv
  split at this
  · cases this
  · rename_i data hd
    simp only [Bool.and_eq_true, decide_eq_true_eq, List.any_eq_true] at this
    obtain ⟨h1, more, -, h2⟩ := this
    exact ⟨_, data, more, hd, h1, h2⟩

/-- **C69** fails for network frames of wizzilab builds whose end-of-input test drops pending bits: input is refused, and with one
more byte it is incomplete. -/
theorem C69_wizzilab_violates (cfg : Cfg) (hv : cfg.variant = .wizzilab) (hs : cfg.seekClears = true) :
    ∃ data more : List U8, Net.Frame.tryFrom cfg data = .error (.fault .parse) ∧
      Net.Frame.tryFrom cfg (data ++ more) = .error .incomplete := by
  have : ∀ cfg ∈ Cfg.all, cfg.variant = .wizzilab → cfg.seekClears = true →
      (match (Sample.foreground 29 ⟨[]⟩).frame.toBytes cfg with
        | .error _ => false
        | .ok data => decide (Net.Frame.tryFrom cfg (data ++ [0, 0]) = .error (.fault .parse)) &&
            decide (Net.Frame.tryFrom cfg (data ++ [0, 0] ++ [1]) = .error .incomplete)) =
        true := by decide +kernel
  have := this cfg (Cfg.mem_all cfg) hv hs
  split at this
  · cases this
  · rename_i data hd
    simp only [Bool.and_eq_true, decide_eq_true_eq] at this
    exact ⟨_, [1], this.1, this.2⟩

/-! The theorems apply: an unknown opcode refused for good, a command cut within and behind an action, a foreground frame cut. -/

example : Command.tryFrom Sample.spec [0x3e] = .error (.fault .invalidParam) := by decide +kernel
example : (Command.tryFrom Sample.spec ([0xb4, 7] ++ [1, 0x40, 0, 4])).isOk = true ∧
    (Command.tryFrom Sample.spec [0xb4, 7]).isOk = true ∧
    Command.tryFrom Sample.spec ([0xb4, 7] ++ [1, 0x40, 0]) = .error .incomplete := by decide +kernel
example : Command.fromReader Sample.spec [0xff, 0x3e] 8 = .error (.fault .invalidParam) := by decide +kernel
example : (match (Sample.foreground 23 ⟨[]⟩).toBytes Sample.spec with
    | .ok bytes => (ForegroundFrame.tryFrom Sample.spec (bytes.take 20 ++ bytes.drop 20)).isOk &&
        decide (ForegroundFrame.tryFrom Sample.spec (bytes.take 20) = .error .incomplete) &&
        decide (ForegroundFrame.tryFrom Sample.spec (bytes ++ [1]) = .error (.fault .parse))
    | .error _ => false) = true := by decide +kernel
example : (match (Sample.foreground 23 ⟨[]⟩).frame.toBytes Sample.wizzilab with
    | .ok bytes => (Net.Frame.tryFrom Sample.wizzilab (bytes ++ [0])).isOk &&
        decide (Net.Frame.tryFrom Sample.wizzilab bytes = .error .incomplete)
    | .error _ => false) = true := by decide +kernel

end Dash7

#print axioms Dash7.C69_command_refused
#print axioms Dash7.C69_command_cut
#print axioms Dash7.C69_command_reader
#print axioms Dash7.C69_frame_refused_partial
#print axioms Dash7.C69_foreground_cut_partial
#print axioms Dash7.C69_network_cut_partial
#print axioms Dash7.C69_foreground_violates
#print axioms Dash7.C69_network_violates
#print axioms Dash7.C69_wizzilab_violates
