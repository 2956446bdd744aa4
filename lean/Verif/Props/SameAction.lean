import Verif.Props.Same
import Verif.Props.Accept
import Verif.Props.Roundtrip
import Verif.Props.Retag

/-!
# C88 for actions and commands
-/

namespace Dash7
open Sample Spec

/-- The actions without reserved bits, lengths and compressed integers: no file offsets, file data, file headers,
queries, statuses of interfaces, interface configurations, addressees and request tags. -/
def Spec.oneFormAction : Action → Bool
  | .nop _ | .readFileProperties _ | .permissionRequest _ | .existFile _ | .deleteFile _ | .restoreFile _
  | .flushFile _ | .copyFile _ | .executeFile _ | .responseTag _ | .chunk _ | .logic _ | .extension _ => true
  | .status o => match o.status with
    | .action _ => true
    | _ => false
  | .indirectForward o => match o.configuration with
    | some (.dash7 _) => false
    | _ => true
  | _ => false

theorem Action.rigid (cfg : Cfg) (a : Action) (h : oneFormAction a = true) : ∃ n, Rigid (Form.action cfg a) n := by
  cases a with
  | nop o | extension o => exact ⟨_, .cons (.header _) <| .cons (.opcode _ _) .nil⟩
  | chunk o | logic o => exact ⟨_, .cons (.field _ _) <| .cons (.opcode _ _) .nil⟩
  | readFileProperties o | existFile o | deleteFile o | restoreFile o | flushFile o | executeFile o =>
    exact ⟨_, .cons (.header _) <| .cons (.opcode _ _) <| .cons (.field _ _) .nil⟩
  | permissionRequest o =>
    exact ⟨_, .cons (.header _) <| .cons (.opcode _ _) <| .cons (.field _ _) <| .cons (.permission _) .nil⟩
  | copyFile o =>
    exact ⟨_, .cons (.header _) <| .cons (.opcode _ _) <| .cons (.field _ _) <| .cons (.field _ _) .nil⟩
  | responseTag o =>
    exact ⟨_, .cons (.cons (.flag _) <| .cons (.flag _) .nil) <| .cons (.opcode _ _) <| .cons (.field _ _) .nil⟩
  | status o =>
    obtain ⟨t, op, st⟩ := o
    cases st with
    | action s =>
      have : ∃ n, Rigid (Form.status cfg.variant cfg.unitPatConsumes t (.action s)) n := by
        cases t with
        | action => exact Item.rigid_status _
        | _ => exact ⟨_, .given _⟩
      obtain ⟨n, hn⟩ := this
      exact ⟨_, .cons (.field _ _) <| .cons (.opcode _ _) <| .cons hn .nil⟩
    | interface _ => cases h
    | interfaceFinal _ => cases h
  | indirectForward o =>
    obtain ⟨⟨ov, r⟩, op, conf⟩ := o
    have : ∃ n, Rigid (Form.indirectConfiguration cfg.variant ov conf) n := by
      cases ov with
      | false =>
        cases conf with
        | none => exact ⟨_, .nil⟩
        | some c => exact ⟨_, .given _⟩
      | true =>
        cases conf with
        | none => exact ⟨_, .given _⟩
        | some c =>
          cases c with
          | dash7 _ => cases h
          | host => exact ⟨_, .cons (.field _ _) .nil⟩
          | serial => exact ⟨_, .cons (.field _ _) .nil⟩
          | unknown i => exact ⟨_, .cons (.field _ _) <| .cons (.given _) .nil⟩
    obtain ⟨n, hn⟩ := this
    exact ⟨_, .cons (.cons (.flag _) <| .cons (.flag _) .nil) <| .cons (.opcode _ _) <| .cons hn .nil⟩
  | _ => cases h

/-- What is written for such an action is its only form. -/
theorem Action.written_form (cfg : Cfg) (a : Action) (h : oneFormAction a = true) (wire : List Bool)
    (hf : Form.action cfg a wire) : ∃ bytes, a.toBytes cfg = .ok bytes ∧ Form.ofBytes bytes = wire := by
  have ht : a.isTx = false := by cases a <;> first | rfl | cases h
  have ho : a.isOther = false := by
    cases a with
    | status o =>
      obtain ⟨t, op, st⟩ := o
      cases st <;> first | rfl | cases h
    | _ => rfl
  have hd : Action.decode cfg (wire ++ []) = .ok (a, []) := (Action.decode_iff cfg a wire []).2 hf
  obtain ⟨bytes, hb, -, hr⟩ := Action.toBytes_decode (Action.decode_wf hd ht ho)
  obtain ⟨n, hn⟩ := Action.rigid cfg a h
  have hf' := (Action.decode_iff cfg a _ []).1 (hr [])
  exact ⟨bytes, hb, by rw [Form.ofBytes_eq]; exact hn.eq _ _ hf' hf⟩

theorem Form.ofBytes_prefix {p d : List U8} {rest : List Bool} (h : Form.ofBytes d = Form.ofBytes p ++ rest) :
    p <+: d := by
  have hl := congrArg List.length h
  rw [List.length_append, Form.ofBytes_length, Form.ofBytes_length] at hl
  have hd : d = d.take p.length ++ d.drop p.length := (List.take_append_drop _ _).symm
  have h2 : Form.ofBytes (d.take p.length) ++ Form.ofBytes (d.drop p.length) = Form.ofBytes p ++ rest := by
    rw [← Form.ofBytes_append, ← hd, h]
  have h3 := (List.append_inj h2 (by rw [Form.ofBytes_length, Form.ofBytes_length, List.length_take]; omega)).1
  rw [Form.ofBytes_eq, Form.ofBytes_eq] at h3
  have h4 := hd.symm
  rw [bytesBits_inj h3] at h4
  exact ⟨d.drop p.length, h4⟩

/-- **C88** Such an action is encoded to the very bytes it was decoded from. -/
theorem C88_action (cfg : Cfg) (data : List U8) (rest : Rest) (a : Action) (ha : oneFormAction a = true)
    (h : Action.fromBytes cfg (data, 0) = .ok (rest, a)) :
    ∃ bytes, a.toBytes cfg = .ok bytes ∧ bytes <+: data := by
  obtain ⟨wire, more, h1, h2⟩ := (C54_from_bytes cfg data a).1 ⟨rest, h⟩
  obtain ⟨bytes, hb, hw⟩ := Action.written_form cfg a ha wire h2
  exact ⟨bytes, hb, Form.ofBytes_prefix (hw.symm ▸ h1)⟩

/-- **C88** A command made of such actions is encoded to the very bytes it was decoded from, up to what was
left behind an indirect forward. -/
theorem C88_command (cfg : Cfg) (data : List U8) (c : Command) (ha : ∀ a ∈ c.actions, oneFormAction a = true)
    (h : Command.tryFrom cfg data = .ok c) :
    ∃ bytes junk, c.toBytes cfg = .ok bytes ∧ data = bytes ++ junk ∧
      (junk ≠ [] → ∃ a, c.actions.getLast? = some a ∧ a.isIndirectForward = true) := by
  have ht : ∀ a ∈ c.actions, a.isTx = false := by
    intro a hm
    have := ha a hm
    cases a <;> first | rfl | cases this
  obtain ⟨wire, junk, rfl, hf, -, hj⟩ := (C55_try_from_partial cfg data c ht).1 h
  have key : ∀ (as : List Action) (w : List Bool), (∀ a ∈ as, oneFormAction a = true) → Form.actions cfg as w →
      ∃ l : List (Action × List U8), l.map Prod.fst = as ∧ (∀ x ∈ l, x.1.toBytes cfg = .ok x.2) ∧
        Form.ofBytes (l.map Prod.snd).flatten = w := by
    intro as
    induction as with
    | nil => intro w _ hw; exact ⟨[], rfl, by simp, hw.symm⟩
    | cons a as ih =>
      rintro w hm ⟨x, y, rfl, hx, hy⟩
      obtain ⟨b, hb, rfl⟩ := Action.written_form cfg a (hm a (by simp)) x hx
      obtain ⟨l, h1, h2, h3⟩ := ih y (fun z hz => hm z (by simp [hz])) hy
      refine ⟨(a, b) :: l, by simp [h1], ?_, by simp [Form.ofBytes_append, h3]⟩
      intro z hz
      rcases List.mem_cons.1 hz with rfl | hz
      · exact hb
      · exact h2 z hz
  obtain ⟨l, h1, h2, h3⟩ := key c.actions _ ha hf
  have h4 := (C49_byte_aligned_partial cfg l fun x hx => ⟨ht x.1 (by rw [← h1]; exact List.mem_map_of_mem hx), h2 x hx⟩).2
  rw [h1] at h4
  rw [Form.ofBytes_eq, Form.ofBytes_eq] at h3
  rw [bytesBits_inj h3] at h4
  refine ⟨wire, junk, h4, rfl, fun hne => ?_⟩
  obtain ⟨he, -⟩ := hj.resolve_left hne
  exact he

/-- Is an action of this code decoded from these bytes, and encoded to others? -/
def Spec.changesAction (cfg : Cfg) (code : Nat) (data : List U8) : Bool :=
  match Action.fromBytes cfg (data, 0) with
  | .ok (_, a) =>
    match a.toBytes cfg with
    | .ok bytes => opcodeOf a == code && !bytes.isPrefixOf data
    | .error _ => false
  | .error _ => false

/-- An action of each of the other kinds, with a length longer than necessary, a reserved bit set, or a zero with
an exponent. -/
def Spec.changedActions : List (Nat × List U8) :=
  [(1, [0x01, 0x41, 0x40, 0, 0]), (4, [0x04, 0x41, 0, 0x40, 0]), (5, [0x05, 0x41, 0, 0x40, 0]),
    (6, 0x06 :: 0x41 :: 0 :: 0x0C :: List.replicate 10 0), (8, [0x08, 0x01, 0, 0, 0]), (9, [0x09, 0x01, 0, 0, 0]),
    (11, [0x0B, 0x01, 0, 0, 0]), (17, 0x11 :: 0x41 :: 0 :: 0x0C :: List.replicate 10 0),
    (32, [0x20, 0x41, 0, 0x40, 0]), (33, 0x21 :: 0x41 :: 0 :: 0x0C :: List.replicate 10 0), (34, [0x62, 0, 5]),
    (50, [0xB2, 0]), (51, [0xB3, 0xD7, 0, 0, 0x20]), (52, [0x74, 7])]

/-- **C88** Each of the other kinds of actions (but the TX status, which C41 is about) has one which is changed. -/
theorem C88_action_only (cfg : Cfg) (code : Nat) (h : code ∈ [1, 4, 5, 6, 8, 9, 11, 17, 32, 33, 34, 50, 51, 52]) :
    ∃ data rest a bytes, opcodeOf a = code ∧ Action.fromBytes cfg (data, 0) = .ok (rest, a) ∧
      a.toBytes cfg = .ok bytes ∧ ¬ bytes <+: data := by
  have key : ∀ x ∈ changedActions, ∀ cfg ∈ configurations, changesAction cfg x.1 x.2 = true := by decide +kernel
  have hx : ∃ x ∈ changedActions, x.1 = code := by
    have : ∀ code ∈ [1, 4, 5, 6, 8, 9, 11, 17, 32, 33, 34, 50, 51, 52], ∃ x ∈ changedActions, x.1 = code := by decide
    exact this code h
  obtain ⟨⟨code', data⟩, hm, rfl⟩ := hx
  have h := key _ hm cfg (mem_configurations cfg)
  unfold changesAction at h
  dsimp only at h
  split at h
  · rename_i rest a h1
    split at h
    · rename_i bytes h2
      rw [Bool.and_eq_true, beq_iff_eq] at h
      refine ⟨data, rest, a, bytes, h.1, h1, h2, fun hp => ?_⟩
      rw [List.isPrefixOf_iff_prefix.2 hp] at h
      cases h.2
    · cases h
  · cases h

/-- A response: tag, action status, and the end by an indirect forward with a byte behind it. -/
example :
    let c : Command := ⟨[.responseTag ⟨⟨true, false⟩, ⟨35⟩, 7⟩, .status ⟨.action, ⟨34⟩, .action ⟨1, ⟨0xFF⟩⟩⟩,
      .indirectForward ⟨⟨true, false⟩, ⟨51⟩, some .host⟩]⟩
    (∀ a ∈ c.actions, oneFormAction a = true) ∧
    Command.tryFrom spec [0xA3, 7, 0x22, 1, 0xFF, 0xB3, 0, 0x55] = .ok c ∧
      c.toBytes spec = .ok [0xA3, 7, 0x22, 1, 0xFF, 0xB3, 0] := by
  decide +kernel

#print axioms C88_action
#print axioms C88_command
#print axioms C88_action_only

end Dash7
