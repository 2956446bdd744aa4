import Verif.Spec.Mirror
import Verif.Props.FrameUnique

/-!
# Readers and writers on the two hosts
-/

namespace Dash7
open Spec

theorem bigEndian_value (bs : List U8) : Spec.bigEndian bs.length (Spec.bigEndianValue bs) = bs := by
  have h : bytesBits (Spec.bigEndian bs.length (Spec.bigEndianValue bs)) = bytesBits bs := by
    rw [bytesBits_bigEndian, ← bitsNat_bytesBits]
    have := natBits_bitsNat (bytesBits bs)
    rwa [bytesBits_length] at this
  exact bytesBits_inj h

theorem bigEndianValue_lt (bs : List U8) : Spec.bigEndianValue bs < 2 ^ (8 * bs.length) := by
  rw [← bitsNat_bytesBits, ← bytesBits_length]
  exact bitsNat_lt _

theorem bigEndianValue_bigEndian (k : Nat) (v : BitVec (8 * k)) :
    Spec.bigEndianValue (Spec.bigEndian k v.toNat) = v.toNat := by
  rw [← bitsNat_bytesBits, bytesBits_bigEndian, bitsNat_natBits, Nat.mod_eq_of_lt v.isLt]

theorem mirror_bytes (k : Nat) (v : BitVec (8 * k)) :
    Spec.bigEndian k (mirror k v).toNat = (Spec.bigEndian k v.toNat).reverse := by
  have hl : (Spec.bigEndian k v.toNat).reverse.length = k := by rw [List.length_reverse, Spec.bigEndian_length]
  have hlt := bigEndianValue_lt (Spec.bigEndian k v.toNat).reverse
  rw [hl] at hlt
  rw [mirror, BitVec.toNat_ofNat, Nat.mod_eq_of_lt hlt]
  have := bigEndian_value (Spec.bigEndian k v.toNat).reverse
  rwa [hl] at this

theorem bigEndian_inj {k : Nat} {v w : BitVec (8 * k)} (h : Spec.bigEndian k v.toNat = Spec.bigEndian k w.toNat) :
    v = w := by
  apply BitVec.eq_of_toNat_eq
  rw [← bigEndianValue_bigEndian, h, bigEndianValue_bigEndian]

theorem mirror_mirror (k : Nat) (v : BitVec (8 * k)) : mirror k (mirror k v) = v :=
  bigEndian_inj (by rw [mirror_bytes, mirror_bytes, List.reverse_reverse])

theorem W.uintHost_mirror (cfg : Cfg) (b : Bool) (k : Nat) (v : BitVec (8 * k)) :
    W.uintHost { cfg with bigEndianHost := b } k v = W.uintHost { cfg with bigEndianHost := !b } k (mirror k v) := by
  have h : ∀ (b : Bool) (w : BitVec (8 * k)), W.uintHost { cfg with bigEndianHost := b } k w =
      .ok (bytesBits (if b then Spec.bigEndian k w.toNat else (Spec.bigEndian k w.toNat).reverse)) :=
    fun b w => Lay.uintHost (cfg := { cfg with bigEndianHost := b }) (k := k) (v := w)
  rw [h, h, mirror_bytes]
  cases b <;> simp

/-! ## Reading -/

/-- `q` reads what `p` reads, and returns what `f` makes of its value. -/
inductive P.Mirrors {α : Type} (f : α → α) : P α → P α → Prop
  | pure (a b : α) (h : b = f a) : Mirrors f (.pure a) (.pure b)
  | fail (e : Fault) : Mirrors f (.fail e) (.fail e)
  | bits (n : Nat) (k k' : List Bool → P α) (h : ∀ l, l.length = n → Mirrors f (k l) (k' l)) :
    Mirrors f (.bits n k) (.bits n k')

theorem P.Mirrors.same {α : Type} (p : P α) : P.Mirrors id p p := by
  induction p with
  | pure a => exact .pure a a rfl
  | fail e => exact .fail e
  | bits n k ih => exact .bits n k k fun l _ => ih l

theorem P.Mirrors.bind {α β : Type} {f : α → α} {g : β → β} {p q : P α} {k k' : α → P β} (h : P.Mirrors f p q)
    (hk : ∀ a, P.Mirrors g (k a) (k' (f a))) : P.Mirrors g (p.bind k) (q.bind k') := by
  induction h with
  | pure a b h => subst h; exact hk a
  | fail e => exact .fail e
  | bits n _ _ _ ih => exact .bits n _ _ ih

theorem P.Mirrors.ret {α : Type} {f : α → α} {a b : α} (h : b = f a) : P.Mirrors f (P.pure a) (P.pure b) := .pure a b h

/-- Nothing to mirror in the first part. -/
theorem P.Mirrors.then {α β : Type} {g : β → β} {p : P α} {k k' : α → P β} (hk : ∀ a, P.Mirrors g (k a) (k' a)) :
    P.Mirrors g (p.bind k) (p.bind k') := (P.Mirrors.same p).bind hk

theorem P.Mirrors.uintHost (cfg : Cfg) (b : Bool) (k : Nat) :
    P.Mirrors (mirror k) (P.uintHost { cfg with bigEndianHost := b } k)
      (P.uintHost { cfg with bigEndianHost := !b } k) := by
  have key : ∀ l : List Bool, l.length = 8 * k →
      BitVec.ofNat (8 * k) (bitsNat (bytesBits (packBits l).reverse)) = mirror k (BitVec.ofNat (8 * k) (bitsNat l)) := by
    intro l hl
    have hp : (packBits l).length = k := by
      have := bytesBits_length (packBits l)
      rw [bytesBits_packBits l ⟨k, hl⟩] at this
      omega
    have hv : bitsNat l = Spec.bigEndianValue (packBits l) := by
      rw [← bitsNat_bytesBits, bytesBits_packBits l ⟨k, hl⟩]
    have hlt := bitsNat_lt l
    rw [hl] at hlt
    rw [mirror, BitVec.toNat_ofNat, Nat.mod_eq_of_lt hlt, hv, bitsNat_bytesBits]
    have := bigEndian_value (packBits l)
    rw [hp] at this
    rw [this]
  cases b with
  | true =>
    have h1 : P.uintHost { cfg with bigEndianHost := true } k =
        .bits (8 * k) fun l => .pure (BitVec.ofNat (8 * k) (bitsNat l)) := by
      simp [P.uintHost, P.uint]
    have h2 : P.uintHost { cfg with bigEndianHost := !true } k = P.uintLE k := by simp [P.uintHost]
    rw [h1, h2]
    exact .bits _ _ _ fun l hl => .pure _ _ (key l hl)
  | false =>
    have h1 : P.uintHost { cfg with bigEndianHost := !false } k =
        .bits (8 * k) fun l => .pure (BitVec.ofNat (8 * k) (bitsNat l)) := by
      simp [P.uintHost, P.uint]
    have h2 : P.uintHost { cfg with bigEndianHost := false } k = P.uintLE k := by simp [P.uintHost]
    rw [h1, h2]
    refine .bits _ _ _ fun l hl => .pure _ _ ?_
    rw [key l hl, mirror_mirror]

/-- The same on a concrete reader. -/
def R.Mirrors {α : Type} (f : α → α) (m m' : R α) : Prop :=
  ∀ r, m' r = (m r).map fun x => (f x.1, x.2)

theorem Rd.readBits_length {r r' : Rd} {n : Nat} {l : List Bool} (h : r.readBits n = .ok (l, r')) : l.length = n := by
  unfold Rd.readBits at h
  split at h
  · cases h; rw [List.length_take]; omega
  · dsimp only at h
    split at h
    · cases h
      rw [List.length_take, List.length_append, bytesBits_length, List.length_take, List.length_drop]
      omega
    · cases h

theorem P.Mirrors.run {α : Type} {f : α → α} {p q : P α} (h : P.Mirrors f p q) : R.Mirrors f p.run q.run := by
  induction h with
  | pure a b h => subst h; exact fun r => rfl
  | fail e => exact fun r => rfl
  | bits n k k' _ ih =>
    intro r
    rw [P.run_bits, P.run_bits]
    cases hr : r.readBits n with
    | error e => rfl
    | ok x =>
      obtain ⟨l, r'⟩ := x
      exact ih l (Rd.readBits_length hr) r'

theorem R.Mirrors.bind {α β : Type} {f : α → α} {g : β → β} {m m' : R α} {k k' : α → R β} (h : R.Mirrors f m m')
    (hk : ∀ a, R.Mirrors g (k a) (k' (f a))) : R.Mirrors g (m.bind k) (m'.bind k') := by
  intro r
  unfold R.bind
  rw [h r]
  cases m r with
  | error e => rfl
  | ok x => exact hk x.1 x.2

theorem R.Mirrors.same {α : Type} (m : R α) : R.Mirrors id m m := fun r => by cases m r <;> rfl

theorem R.Mirrors.then {α β : Type} {g : β → β} {m : R α} {k k' : α → R β} (hk : ∀ a, R.Mirrors g (k a) (k' a)) :
    R.Mirrors g (m.bind k) (m.bind k') := (R.Mirrors.same m).bind hk

theorem R.Mirrors.pure {α : Type} {f : α → α} {a b : α} (h : b = f a) : R.Mirrors f (R.pure a) (R.pure b) := by
  subst h; exact fun r => rfl

theorem R.Mirrors.startAt {α : Type} {f : α → α} {m m' : R α} (h : R.Mirrors f m m') (off : Nat) :
    R.Mirrors f (Dash7.startAt off m) (Dash7.startAt off m') := by
  unfold Dash7.startAt
  split
  · exact .then fun _ => h
  · exact h

/-! ## The types with such numbers -/


theorem SecurityKey.mirrors (cfg : Cfg) (b : Bool) : P.Mirrors (fun s => ⟨mirror 16 s.key⟩)
    (SecurityKey.read { cfg with bigEndianHost := b }) (SecurityKey.read { cfg with bigEndianHost := !b }) :=
  (P.Mirrors.uintHost cfg b 16).bind fun _ => .ret rfl

theorem File.mirrors (cfg : Cfg) (b : Bool) (fid : FileId) (l : U32) : P.Mirrors mirrorFile
    (File.read { cfg with bigEndianHost := b } fid l) (File.read { cfg with bigEndianHost := !b } fid l) := by
  cases fid with
  | networkSecurityKey => exact (SecurityKey.mirrors cfg b).bind fun _ => .ret rfl
  | _ => exact .then fun _ => .ret rfl

theorem FileData.mirrors (cfg : Cfg) (b : Bool) : P.Mirrors (fun o => { o with data := mirrorFile o.data })
    (Op.FileData.read { cfg with bigEndianHost := b }) (Op.FileData.read { cfg with bigEndianHost := !b }) :=
  .then fun _ => .then fun _ => .then fun _ =>
    P.Mirrors.bind (f := mirrorFile) (.then fun _ => File.mirrors cfg b _ _) fun _ => .ret rfl

theorem LoRaWANABP.mirrors (cfg : Cfg) (b : Bool) : P.Mirrors
    (fun c => { c with deviceAddress := mirror 4 c.deviceAddress, networkId := mirror 4 c.networkId })
    (LoRaWANABPInterfaceConfiguration.read { cfg with bigEndianHost := b })
    (LoRaWANABPInterfaceConfiguration.read { cfg with bigEndianHost := !b }) :=
  .then fun _ => .then fun _ => .then fun _ => (P.Mirrors.uintHost cfg b 4).bind fun _ =>
    (P.Mirrors.uintHost cfg b 4).bind fun _ => .ret rfl

theorem InterfaceConfiguration.mirrors (cfg : Cfg) (b : Bool) : P.Mirrors mirrorConfiguration
    (InterfaceConfiguration.read { cfg with bigEndianHost := b })
    (InterfaceConfiguration.read { cfg with bigEndianHost := !b }) := by
  unfold InterfaceConfiguration.read
  refine .then fun i => ?_
  split
  · exact .ret rfl
  · exact .ret rfl
  · exact (LoRaWANABP.mirrors cfg b).bind fun _ => .ret rfl
  · exact .then fun _ => .ret rfl
  · exact P.Mirrors.then (p := Dash7InterfaceConfiguration.read cfg) fun _ => .ret rfl
  · exact .ret rfl

theorem Forward.mirrors (cfg : Cfg) (b : Bool) :
    P.Mirrors (fun o => { o with configuration := mirrorConfiguration o.configuration })
    (Op.Forward.read { cfg with bigEndianHost := b }) (Op.Forward.read { cfg with bigEndianHost := !b }) :=
  .then fun _ => .then fun _ => .then fun _ => (InterfaceConfiguration.mirrors cfg b).bind fun _ => .ret rfl

theorem Dash7InterfaceTxStatus.mirrors (cfg : Cfg) (b : Bool) :
    P.Mirrors (fun s => { s with lts := mirror 4 s.lts })
    (Dash7InterfaceTxStatus.read { cfg with bigEndianHost := b })
    (Dash7InterfaceTxStatus.read { cfg with bigEndianHost := !b }) :=
  .then fun _ => .then fun _ => .then fun _ => .then fun _ => (P.Mirrors.uintHost cfg b 4).bind fun _ =>
    P.Mirrors.then (p := Addressee.read cfg) fun _ => .ret rfl

theorem InterfaceTxStatus.mirrors (cfg : Cfg) (b : Bool) (i : U8) (l : U32) : P.Mirrors mirrorTxStatus
    (InterfaceTxStatus.read { cfg with bigEndianHost := b } i l)
    (InterfaceTxStatus.read { cfg with bigEndianHost := !b } i l) := by
  unfold InterfaceTxStatus.read
  split
  · exact (Dash7InterfaceTxStatus.mirrors cfg b).bind fun _ => .ret rfl
  · exact .then fun _ => .ret rfl

theorem TxStatusOperation.mirrors (cfg : Cfg) (b : Bool) :
    P.Mirrors (fun o => { o with status := { o.status with status := mirrorTxStatus o.status.status } })
    (Op.TxStatusOperation.read { cfg with bigEndianHost := b })
    (Op.TxStatusOperation.read { cfg with bigEndianHost := !b }) :=
  .then fun _ => .then fun _ => .then fun _ =>
    P.Mirrors.bind (f := fun o => { o with status := mirrorTxStatus o.status })
      (.then fun _ => .then fun _ => (InterfaceTxStatus.mirrors cfg b _ _).bind fun _ => .ret rfl) fun _ => .ret rfl

theorem Action.dispatch_mirrors (cfg : Cfg) (b : Bool) (code : OpCode) : P.Mirrors mirrorAction
    (Action.dispatch { cfg with bigEndianHost := b } code) (Action.dispatch { cfg with bigEndianHost := !b } code) := by
  unfold Action.dispatch
  split
  case h_4 => exact (FileData.mirrors cfg b).bind fun _ => .ret rfl
  case h_5 => exact (FileData.mirrors cfg b).bind fun _ => .ret rfl
  case h_18 => exact (FileData.mirrors cfg b).bind fun _ => .ret rfl
  case h_20 => exact P.Mirrors.then (p := Op.StatusOperand.read cfg) fun _ => .ret rfl
  case h_22 =>
    dsimp only
    split
    · exact (TxStatusOperation.mirrors cfg b).bind fun _ => .ret rfl
    · exact .fail _
  case h_25 => exact (Forward.mirrors cfg b).bind fun _ => .ret rfl
  case h_26 => exact P.Mirrors.then (p := Op.IndirectForward.read cfg) fun _ => .ret rfl
  all_goals first | exact .fail _ | exact .then fun _ => .ret rfl

theorem Action.read_mirrors (cfg : Cfg) (b : Bool) : R.Mirrors mirrorAction
    (Action.read { cfg with bigEndianHost := b }) (Action.read { cfg with bigEndianHost := !b }) :=
  .then fun _ => .then fun code => R.Mirrors.then (m := R.seekBack cfg) fun _ =>
    (Action.dispatch_mirrors cfg b code).run

theorem endsIndirect_mirror (acc : List Action) :
    Command.endsIndirect (acc.map mirrorAction) = Command.endsIndirect acc := by
  unfold Command.endsIndirect
  rw [List.getLast?_map]
  cases acc.getLast? with
  | none => rfl
  | some a => cases a <;> rfl

theorem Command.loop_mirrors (cfg : Cfg) (b : Bool) (length : U32) (fuel : Nat) (acc : List Action) :
    R.Mirrors (List.map mirrorAction) (Command.loop { cfg with bigEndianHost := b } length fuel acc)
      (Command.loop { cfg with bigEndianHost := !b } length fuel (acc.map mirrorAction)) := by
  induction fuel generalizing acc with
  | zero => exact fun r => rfl
  | succ fuel ih =>
    unfold Command.loop
    rw [endsIndirect_mirror]
    refine R.Mirrors.then (m := Command.validLength cfg length) fun v => ?_
    cases v with
    | false => exact .pure rfl
    | true =>
      refine R.Mirrors.then (m := R.atEnd cfg) fun s => ?_
      cases s with
      | true => exact .pure rfl
      | false =>
        cases Command.endsIndirect acc with
        | true => exact .pure rfl
        | false =>
          refine (Action.read_mirrors cfg b).bind fun a => ?_
          have := ih (acc ++ [a])
          rw [List.map_append] at this
          exact this

theorem Command.read_mirrors (cfg : Cfg) (b : Bool) (length : U32) : R.Mirrors mirrorCommand
    (Command.read { cfg with bigEndianHost := b } length) (Command.read { cfg with bigEndianHost := !b } length) :=
  fun r => (R.Mirrors.bind (g := mirrorCommand) (k := fun as => R.pure ⟨as⟩) (k' := fun as => R.pure ⟨as⟩)
    (Command.loop_mirrors cfg b length (r.data.length + 1) []) fun _ => .pure rfl) r

theorem Trans.Frame.read_mirrors (cfg : Cfg) (b : Bool) (length : U32) : R.Mirrors mirrorTransport
    (Trans.Frame.read { cfg with bigEndianHost := b } length)
    (Trans.Frame.read { cfg with bigEndianHost := !b } length) :=
  .then fun _ => (Command.read_mirrors cfg b length).bind fun _ => .pure rfl

theorem Net.Frame.read_mirrors (cfg : Cfg) (b : Bool) (length : U32) : R.Mirrors mirrorNetwork
    (Net.Frame.read { cfg with bigEndianHost := b } length)
    (Net.Frame.read { cfg with bigEndianHost := !b } length) :=
  R.Mirrors.then (m := (Net.Header.read cfg).run) fun _ => (Trans.Frame.read_mirrors cfg b length).bind fun _ => .pure rfl

theorem ForegroundFrame.read_mirrors (cfg : Cfg) (b : Bool) : R.Mirrors mirrorForeground
    (ForegroundFrame.read { cfg with bigEndianHost := b }) (ForegroundFrame.read { cfg with bigEndianHost := !b }) :=
  .then fun _ => (Net.Frame.read_mirrors cfg b _).bind fun _ =>
    (P.Mirrors.uintHost cfg b 2).run.bind fun _ => .pure rfl

theorem BackgroundFrame.read_mirrors (cfg : Cfg) (b : Bool) : P.Mirrors mirrorBackground
    (BackgroundFrame.read { cfg with bigEndianHost := b }) (BackgroundFrame.read { cfg with bigEndianHost := !b }) :=
  .then fun _ => .then fun _ => (P.Mirrors.uintHost cfg b 2).bind fun _ =>
    (P.Mirrors.uintHost cfg b 2).bind fun _ => .ret rfl

/-! ## Writing -/

theorem File.write_mirror (cfg : Cfg) (b : Bool) (f : File) :
    f.write { cfg with bigEndianHost := b } = (mirrorFile f).write { cfg with bigEndianHost := !b } := by
  cases f with
  | nwlSecurityKey s =>
    show W.seq [_] = W.seq [_]
    rw [W.uintHost_mirror cfg b 16 s.key]
  | _ => rfl

theorem LoRaWANABP.write_mirror (cfg : Cfg) (b : Bool) (c : LoRaWANABPInterfaceConfiguration) :
    c.write { cfg with bigEndianHost := b } = LoRaWANABPInterfaceConfiguration.write { cfg with bigEndianHost := !b }
      { c with deviceAddress := mirror 4 c.deviceAddress, networkId := mirror 4 c.networkId } := by
  unfold LoRaWANABPInterfaceConfiguration.write
  rw [W.uintHost_mirror cfg b 4 c.deviceAddress, W.uintHost_mirror cfg b 4 c.networkId]

theorem InterfaceConfiguration.write_mirror (cfg : Cfg) (b : Bool) (c : InterfaceConfiguration) :
    c.write { cfg with bigEndianHost := b } = (mirrorConfiguration c).write { cfg with bigEndianHost := !b } := by
  cases c with
  | loRaWanABP c =>
    unfold InterfaceConfiguration.write mirrorConfiguration
    dsimp only
    rw [LoRaWANABP.write_mirror]
  | _ => rfl

theorem InterfaceTxStatus.write_mirror (cfg : Cfg) (b : Bool) (s : InterfaceTxStatus) :
    s.write { cfg with bigEndianHost := b } = (mirrorTxStatus s).write { cfg with bigEndianHost := !b } := by
  cases s with
  | dash7 s =>
    show Dash7InterfaceTxStatus.write _ _ = Dash7InterfaceTxStatus.write _ _
    unfold Dash7InterfaceTxStatus.write
    rw [W.uintHost_mirror cfg b 4 s.lts]
    rfl
  | other s => rfl

theorem Action.write_mirror (cfg : Cfg) (b : Bool) (a : Action) :
    a.write { cfg with bigEndianHost := b } = (mirrorAction a).write { cfg with bigEndianHost := !b } := by
  have hf : ∀ op (o : Op.FileData), o.write { cfg with bigEndianHost := b } op =
      Op.FileData.write { cfg with bigEndianHost := !b } op { o with data := mirrorFile o.data } := by
    intro op o
    unfold Op.FileData.write Op.FileData.writeData
    rw [File.write_mirror]
  cases a with
  | writeFileData o => exact hf _ o
  | writeFileDataFlush o => exact hf _ o
  | returnFileData o => exact hf _ o
  | forward o =>
    show Op.Forward.write _ _ _ = Op.Forward.write _ _ _
    unfold Op.Forward.write
    rw [InterfaceConfiguration.write_mirror]
    rfl
  | txStatus o =>
    show Op.TxStatusOperation.write _ _ _ = Op.TxStatusOperation.write _ _ _
    unfold Op.TxStatusOperation.write Op.InterfaceTxStatusOperation.write
    rw [InterfaceTxStatus.write_mirror]
    rfl
  | _ => rfl

theorem Command.write_mirror (cfg : Cfg) (b : Bool) (c : Command) :
    c.write { cfg with bigEndianHost := b } = (mirrorCommand c).write { cfg with bigEndianHost := !b } := by
  unfold Command.write W.list mirrorCommand
  rw [List.map_map]
  congr 1
  exact List.map_congr_left fun a _ => Action.write_mirror cfg b a

theorem Trans.Frame.write_mirror (cfg : Cfg) (b : Bool) (f : Trans.Frame) :
    f.write { cfg with bigEndianHost := b } = (mirrorTransport f).write { cfg with bigEndianHost := !b } := by
  unfold Trans.Frame.write
  rw [Command.write_mirror]; rfl

theorem Net.Frame.write_mirror (cfg : Cfg) (b : Bool) (f : Net.Frame) :
    f.write { cfg with bigEndianHost := b } = (mirrorNetwork f).write { cfg with bigEndianHost := !b } := by
  unfold Net.Frame.write
  rw [Trans.Frame.write_mirror]; rfl

theorem ForegroundFrame.write_mirror (cfg : Cfg) (b : Bool) (f : ForegroundFrame) :
    f.write { cfg with bigEndianHost := b } = (mirrorForeground f).write { cfg with bigEndianHost := !b } := by
  unfold ForegroundFrame.write
  rw [Net.Frame.write_mirror, W.uintHost_mirror]; rfl

theorem BackgroundFrame.write_mirror (cfg : Cfg) (b : Bool) (f : BackgroundFrame) :
    f.write { cfg with bigEndianHost := b } = (mirrorBackground f).write { cfg with bigEndianHost := !b } := by
  unfold BackgroundFrame.write
  rw [W.uintHost_mirror cfg b 2 f.payload, W.uintHost_mirror cfg b 2 f.crc16]; rfl

/-! ## Values that differ in such numbers only -/

/-- If `w` writes something, `w'` writes as much, and `Q` holds if it is the same. -/
def W.Like (w w' : W) (Q : Prop) : Prop :=
  ∀ x, w = .ok x → ∃ y, w' = .ok y ∧ y.length = x.length ∧ (x = y → Q)

theorem W.Like.same (w : W) : W.Like w w True := fun x h => ⟨x, h, rfl, fun _ => trivial⟩

theorem W.Like.imp {w w' : W} {Q Q' : Prop} (h : W.Like w w' Q) (hq : Q → Q') : W.Like w w' Q' := fun x hx => by
  obtain ⟨y, h1, h2, h3⟩ := h x hx
  exact ⟨y, h1, h2, fun e => hq (h3 e)⟩

theorem W.Like.nil : W.Like (W.seq []) (W.seq []) True := .same _

theorem W.Like.cons {w w' : W} {ws ws' : List W} {Q Q' : Prop} (h : W.Like w w' Q)
    (hs : W.Like (W.seq ws) (W.seq ws') Q') : W.Like (W.seq (w :: ws)) (W.seq (w' :: ws')) (Q ∧ Q') := by
  intro z hz
  cases hw : w with
  | error e => simp [W.seq, hw] at hz
  | ok x =>
    cases hv : W.seq ws with
    | error e => simp [W.seq, hw, hv] at hz
    | ok xs =>
      simp only [W.seq, hw, hv, Except.ok.injEq] at hz
      obtain ⟨y, h1, h2, h3⟩ := h x hw
      obtain ⟨ys, h4, h5, h6⟩ := hs xs hv
      refine ⟨y ++ ys, by simp [W.seq, h1, h4], by rw [← hz]; simp [h2, h5], fun e => ?_⟩
      rw [← hz] at e
      have := List.append_inj e h2.symm
      exact ⟨h3 this.1, h6 this.2⟩

theorem W.Like.head {w : W} {ws ws' : List W} {Q : Prop} (hs : W.Like (W.seq ws) (W.seq ws') Q) :
    W.Like (W.seq (w :: ws)) (W.seq (w :: ws')) Q := (W.Like.cons (.same w) hs).imp And.right

theorem W.Like.one {w w' : W} {Q : Prop} (h : W.Like w w' Q) : W.Like (W.seq [w]) (W.seq [w']) Q :=
  (W.Like.cons h .nil).imp And.left

theorem W.Like.toBytes {w w' : W} {Q : Prop} (h : W.Like w w' Q) (hok : w.toBytes.isOk = true)
    (he : w.toBytes = w'.toBytes) : Q := by
  cases hw : w with
  | error e => rw [hw] at hok; cases hok
  | ok x =>
    obtain ⟨y, h1, h2, h3⟩ := h x hw
    rw [hw, h1] at he
    simp only [W.toBytes, Except.ok.injEq] at he
    exact h3 (packBits_same (by rw [h2]) he).2

theorem W.Like.prefixed {w w' : W} {Q : Prop} (h : W.Like w w' Q) :
    W.Like (writeLengthPrefixed w) (writeLengthPrefixed w') Q := by
  intro z hz
  cases hw : w with
  | error e => rw [hw] at hz; cases hz
  | ok x =>
    obtain ⟨y, h1, h2, h3⟩ := h x hw
    have hl : (packBits y).length = (packBits x).length := by rw [packBits_length, packBits_length, h2]
    rw [hw] at hz
    have key : W.Like (W.list W.u8 (packBits x)) (W.list W.u8 (packBits y)) (packBits x = packBits y) := by
      rw [W.list_u8, W.list_u8]
      intro a ha
      cases ha
      refine ⟨_, rfl, by rw [bytesBits_length, bytesBits_length, hl], bytesBits_inj⟩
    have := (W.Like.head (w := (Length.ofUsize (packBits x).length).write) key.one)
    rw [h1]
    unfold writeLengthPrefixed at hz ⊢
    simp only [hl] at hz ⊢
    exact (this.imp fun e => h3 (packBits_same (by rw [h2]) e).2) z hz

theorem W.Like.uintHost (cfg : Cfg) (k : Nat) (v : BitVec (8 * k)) :
    W.Like (W.uintHost cfg k v) (W.uintHost cfg k (mirror k v)) (mirror k v = v) := by
  have h : ∀ w : BitVec (8 * k), W.uintHost cfg k w = .ok (bytesBits (if cfg.bigEndianHost then
      Spec.bigEndian k w.toNat else (Spec.bigEndian k w.toNat).reverse)) :=
    fun w => Lay.uintHost (cfg := cfg) (k := k) (v := w)
  rw [h, h]
  intro x hx
  cases hx
  refine ⟨_, rfl, ?_, fun e => ?_⟩
  · rw [bytesBits_length, bytesBits_length]
    split <;> simp [Spec.bigEndian_length]
  · have := bytesBits_inj e
    split at this
    · exact (bigEndian_inj this).symm
    · exact (bigEndian_inj (List.reverse_inj.1 this)).symm

theorem File.write_like (cfg : Cfg) (f : File) : W.Like (f.write cfg) ((mirrorFile f).write cfg) (mirrorFile f = f) := by
  cases f with
  | nwlSecurityKey s => exact ((W.Like.uintHost cfg 16 s.key).one).imp fun h => by rw [mirrorFile, h]
  | _ => exact (W.Like.same _).imp fun _ => rfl

theorem FileData.write_like (cfg : Cfg) (op : OpCode) (o : Op.FileData) : W.Like (o.write cfg op)
    (Op.FileData.write cfg op { o with data := mirrorFile o.data }) (mirrorFile o.data = o.data) :=
  .head (.head (.head (W.Like.one (File.write_like cfg o.data).prefixed)))

theorem InterfaceConfiguration.write_like (cfg : Cfg) (c : InterfaceConfiguration) :
    W.Like (c.write cfg) ((mirrorConfiguration c).write cfg) (mirrorConfiguration c = c) := by
  cases c with
  | loRaWanABP c =>
    have h : W.Like (c.write cfg) (LoRaWANABPInterfaceConfiguration.write cfg
        { c with deviceAddress := mirror 4 c.deviceAddress, networkId := mirror 4 c.networkId })
        (mirror 4 c.deviceAddress = c.deviceAddress ∧ mirror 4 c.networkId = c.networkId) := by
      unfold LoRaWANABPInterfaceConfiguration.write
      exact .head (.head (.head (.cons (W.Like.uintHost cfg 4 c.deviceAddress)
        (W.Like.one (W.Like.uintHost cfg 4 c.networkId)))))
    unfold mirrorConfiguration InterfaceConfiguration.write
    dsimp only
    exact (W.Like.head h.one).imp fun h => by rw [h.1, h.2]
  | _ => exact (W.Like.same _).imp fun _ => rfl

theorem InterfaceTxStatus.write_like (cfg : Cfg) (s : InterfaceTxStatus) :
    W.Like (s.write cfg) ((mirrorTxStatus s).write cfg) (mirrorTxStatus s = s) := by
  cases s with
  | dash7 s =>
    unfold mirrorTxStatus InterfaceTxStatus.write Dash7InterfaceTxStatus.write
    dsimp only
    exact (W.Like.head (.head (.head (.head ((W.Like.uintHost cfg 4 s.lts).cons (W.Like.same _)))))).imp
      fun h => by rw [h.1]
  | other s => exact (W.Like.same _).imp fun _ => rfl

theorem Action.write_like (cfg : Cfg) (a : Action) :
    W.Like (a.write cfg) ((mirrorAction a).write cfg) (mirrorAction a = a) := by
  cases a with
  | writeFileData o => exact (FileData.write_like cfg _ o).imp fun h => by rw [mirrorAction, h]
  | writeFileDataFlush o => exact (FileData.write_like cfg _ o).imp fun h => by rw [mirrorAction, h]
  | returnFileData o => exact (FileData.write_like cfg _ o).imp fun h => by rw [mirrorAction, h]
  | forward o =>
    have h : W.Like (o.write cfg ⟨50⟩) (Op.Forward.write cfg ⟨50⟩
        { o with configuration := mirrorConfiguration o.configuration }) (mirrorConfiguration o.configuration = o.configuration) := by
      unfold Op.Forward.write
      exact .head (.head (.head (W.Like.one (InterfaceConfiguration.write_like cfg o.configuration))))
    exact W.Like.imp h fun h => by rw [mirrorAction, h]
  | txStatus o =>
    have h : W.Like (o.write cfg ⟨38⟩) (Op.TxStatusOperation.write cfg ⟨38⟩
        { o with status := { o.status with status := mirrorTxStatus o.status.status } })
        (mirrorTxStatus o.status.status = o.status.status) := by
      unfold Op.TxStatusOperation.write Op.InterfaceTxStatusOperation.write
      exact .head (.head (.head (W.Like.one (W.Like.head
        (W.Like.one (InterfaceTxStatus.write_like cfg o.status.status).prefixed)))))
    exact W.Like.imp h fun h => by rw [mirrorAction, h]
  | _ => exact (W.Like.same _).imp fun _ => rfl

theorem Command.write_like (cfg : Cfg) (c : Command) :
    W.Like (c.write cfg) ((mirrorCommand c).write cfg) (mirrorCommand c = c) := by
  obtain ⟨l⟩ := c
  suffices h : W.Like (W.seq (l.map (Action.write cfg))) (W.seq ((l.map mirrorAction).map (Action.write cfg)))
      (l.map mirrorAction = l) from W.Like.imp h fun e => by rw [mirrorCommand, e]
  induction l with
  | nil => exact W.Like.nil.imp fun _ => rfl
  | cons a l ih => exact ((Action.write_like cfg a).cons ih).imp fun h => by rw [List.map_cons, h.1, h.2]

theorem Trans.Frame.write_like (cfg : Cfg) (f : Trans.Frame) :
    W.Like (f.write cfg) ((mirrorTransport f).write cfg) (mirrorTransport f = f) :=
  (W.Like.head (W.Like.one (Command.write_like cfg f.command))).imp fun h => by rw [mirrorTransport, h]

theorem Net.Frame.write_like (cfg : Cfg) (f : Net.Frame) :
    W.Like (f.write cfg) ((mirrorNetwork f).write cfg) (mirrorNetwork f = f) :=
  (W.Like.head (W.Like.one (Trans.Frame.write_like cfg f.frame))).imp fun h => by rw [mirrorNetwork, h]

theorem ForegroundFrame.write_like (cfg : Cfg) (f : ForegroundFrame) :
    W.Like (f.write cfg) ((mirrorForeground f).write cfg) (mirrorForeground f = f) :=
  (W.Like.head ((Net.Frame.write_like cfg f.frame).cons (W.Like.one (W.Like.uintHost cfg 2 f.crc16)))).imp
    fun h => by rw [mirrorForeground, h.1, h.2]

theorem BackgroundFrame.write_like (cfg : Cfg) (f : BackgroundFrame) :
    W.Like (f.write cfg) ((mirrorBackground f).write cfg) (mirrorBackground f = f) :=
  (W.Like.head (.head ((W.Like.uintHost cfg 2 f.payload).cons (W.Like.one (W.Like.uintHost cfg 2 f.crc16))))).imp
    fun h => by rw [mirrorBackground, h.1, h.2]

/-! ## Mirrored twice -/

theorem mirrorFile_twice (f : File) : mirrorFile (mirrorFile f) = f := by
  cases f <;> first | rfl | (simp only [mirrorFile]; rw [mirror_mirror 16])

theorem mirrorAction_twice (a : Action) : mirrorAction (mirrorAction a) = a := by
  cases a with
  | writeFileData o => simp only [mirrorAction, mirrorFile_twice]
  | writeFileDataFlush o => simp only [mirrorAction, mirrorFile_twice]
  | returnFileData o => simp only [mirrorAction, mirrorFile_twice]
  | forward o =>
    obtain ⟨r, oc, c⟩ := o
    cases c <;> first | rfl | (simp only [mirrorAction, mirrorConfiguration]; rw [mirror_mirror 4, mirror_mirror 4])
  | txStatus o =>
    obtain ⟨oc, i, s⟩ := o
    cases s <;> first | rfl | (simp only [mirrorAction, mirrorTxStatus]; rw [mirror_mirror 4])
  | _ => rfl

theorem mirrorCommand_twice (c : Command) : mirrorCommand (mirrorCommand c) = c := by
  obtain ⟨l⟩ := c
  simp only [mirrorCommand, List.map_map, Command.mk.injEq]
  conv => rhs; rw [← List.map_id l]
  exact List.map_congr_left fun a _ => mirrorAction_twice a

/-! ## All derived types -/

theorem Item.read_mirrors (cfg : Cfg) (b : Bool) (i : Item) : P.Mirrors (mirrorItem i)
    (i.read { cfg with bigEndianHost := b }) (i.read { cfg with bigEndianHost := !b }) := by
  cases i with
  | securityKey => exact SecurityKey.mirrors cfg b
  | file => exact File.mirrors cfg b .other 0
  | dash7InterfaceTxStatus => exact Dash7InterfaceTxStatus.mirrors cfg b
  | loRaWANABP => exact LoRaWANABP.mirrors cfg b
  | interfaceConfiguration => exact InterfaceConfiguration.mirrors cfg b
  | interfaceTxStatusOperation =>
    exact .then fun _ => .then fun _ => (InterfaceTxStatus.mirrors cfg b _ _).bind fun _ => .ret rfl
  | backgroundFrame => exact BackgroundFrame.read_mirrors cfg b
  | _ => exact P.Mirrors.same _

theorem Item.write_mirror (cfg : Cfg) (b : Bool) (i : Item) (v : i.Val) :
    i.write { cfg with bigEndianHost := b } v = i.write { cfg with bigEndianHost := !b } (mirrorItem i v) := by
  cases i with
  | securityKey => exact File.write_mirror cfg b (.nwlSecurityKey v)
  | file => exact File.write_mirror cfg b v
  | dash7InterfaceTxStatus => exact InterfaceTxStatus.write_mirror cfg b (.dash7 v)
  | loRaWANABP => exact LoRaWANABP.write_mirror cfg b v
  | interfaceConfiguration => exact InterfaceConfiguration.write_mirror cfg b v
  | interfaceTxStatusOperation =>
    show Op.InterfaceTxStatusOperation.write _ _ = Op.InterfaceTxStatusOperation.write _ _
    unfold Op.InterfaceTxStatusOperation.write
    rw [InterfaceTxStatus.write_mirror]
    rfl
  | backgroundFrame => exact BackgroundFrame.write_mirror cfg b v
  | _ => rfl

end Dash7
