import Verif.Props.Layout
import Verif.Lemmas.Align

/-!
# C21, C22, C23, C29, C30, C46: files
-/

namespace Dash7

/-! ## C21 -/

/-- The number of bytes a file content takes. -/
def Spec.fileBytes : File → Nat
  | .accessProfile _ _ => 65
  | .uId _ => 8
  | .factorySettings _ => 56
  | .firmwareVersion _ => 15
  | .engineeringMode _ => 7
  | .vId _ => 2
  | .phyStatus p => 15 + 3 * p.channelStatus.length
  | .dllConfig _ => 7
  | .dllStatus _ => 16
  | .nwlSecurityKey _ => 16
  | .other b => b.length

/-- A UID file holds a UID, a VID file a VID. -/
def Spec.addressFits : File → Bool
  | .uId a => a.type = .uId
  | .vId a => a.type = .vId
  | _ => true

/-- Where there is an encoding it has `k` bytes. -/
def Wire.Has (o : Option (List U8)) (k : Nat) : Prop := ∀ b, o = some b → b.length = k

namespace Wire.Has

theorem nil : Wire.Has (Wire.join []) 0 := by
  intro b h; injection h with h; subst h; rfl

theorem cons {o : Option (List U8)} {os : List (Option (List U8))} {k l : Nat} (h : Wire.Has o k)
    (hs : Wire.Has (Wire.join os) l) : Wire.Has (Wire.join (o :: os)) (k + l) := by
  intro b hb
  obtain ⟨x, y, h1, h2, rfl⟩ := Wire.join_cons hb
  rw [List.length_append, h x h1, hs y h2]

theorem number (k v : Nat) : Wire.Has (Wire.number k v) k := by
  intro b h; injection h with h; rw [← h, Spec.bigEndian_length]

theorem hostNumber (g : Bool) (k v : Nat) : Wire.Has (Wire.hostNumber g k v) k := by
  intro b h; injection h with h; rw [← h]; cases g <;> simp [Spec.bigEndian_length]

theorem packed (k : Nat) (fs : List (Nat × Nat)) : Wire.Has (Wire.packed k fs) k := by
  intro b h; injection h with h; rw [← h, Spec.bigEndian_length]

theorem byte (fs : List (Nat × Nat)) : Wire.Has (Wire.byte fs) 1 := packed 1 fs

theorem raw (l : List U8) : Wire.Has (Wire.raw l) l.length := by
  intro b h; injection h with h; rw [← h]

theorem varInt (v : VarInt) : Wire.Has (Wire.varInt v) 1 := by
  unfold Wire.varInt
  dsimp only
  split
  · exact byte _
  · intro b h; cases h

theorem cast {o : Option (List U8)} {k l : Nat} (h : Wire.Has o k) (e : k = l) : Wire.Has o l := e ▸ h

theorem all {α : Type} {f : α → Option (List U8)} {k : Nat} (h : ∀ a, Wire.Has (f a) k) (l : List α) :
    Wire.Has (Wire.join (l.map f)) (k * l.length) := by
  induction l with
  | nil => exact nil
  | cons a l ih => exact ((h a).cons ih).cast (by simp [Nat.mul_add, Nat.add_comm])

theorem append {os ps : List (Option (List U8))} {k l : Nat} (h : Wire.Has (Wire.join os) k)
    (hs : Wire.Has (Wire.join ps) l) : Wire.Has (Wire.join (os ++ ps)) (k + l) := by
  intro b hb
  obtain ⟨x, y, h1, h2, rfl⟩ : ∃ x y, Wire.join os = some x ∧ Wire.join ps = some y ∧ b = x ++ y := by
    clear h hs
    induction os generalizing b with
    | nil => exact ⟨[], b, rfl, hb, rfl⟩
    | cons o os ih =>
      obtain ⟨x, y, h1, h2, rfl⟩ := Wire.join_cons hb
      obtain ⟨x', y', h3, h4, rfl⟩ := ih _ h2
      refine ⟨x ++ x', y', ?_, h4, (List.append_assoc _ _ _).symm⟩
      rw [h1, Wire.join, h3]
  rw [List.length_append, h x h1, hs y h2]

end Wire.Has

theorem Wire.file_has (g : Bool) (f : File) (h : Spec.addressFits f = true) :
    Wire.Has (Wire.file g f) (Spec.fileBytes f) := by
  cases f with
  | accessProfile i p =>
    have hsp : ∀ a, Wire.Has (Wire.subProfile a) 2 := fun a => (Wire.Has.raw _).cons <| .cons (.varInt _) .nil
    have hsb : ∀ a, Wire.Has (Wire.subBand a) 7 := fun a =>
      (Wire.Has.number 2 _).cons <| .cons (.number 2 _) <| .cons (.raw _) .nil
    have := (((Wire.Has.byte _).cons .nil).append (.all hsp p.subProfiles.toList)).append
      (.all hsb p.subBands.toList) (os := [Wire.channelHeader p.channelHeader] ++ _)
    exact this.cast (by simp [Spec.fileBytes])
  | uId a =>
    cases a <;> simp [Spec.addressFits, Address.type] at h
    exact .number 8 _
  | vId a =>
    cases a <;> simp [Spec.addressFits, Address.type] at h
    exact .number 2 _
  | factorySettings f =>
    unfold Wire.file Wire.factorySettings
    exact (Wire.Has.raw _).cons <| .cons (.number 4 _) <| .cons (.number 4 _) <| .cons (.number 4 _) <|
      .cons (.number 4 _) <| .cons (.number 4 _) <| .cons (.number 4 _) <| .cons (.number 4 _) <|
      .cons (.number 4 _) <| .cons (.number 4 _) <| .cons (.raw _) <| .cons (.number 4 _) <|
      .cons (.raw _) <| .cons (.number 2 _) .nil
  | firmwareVersion f =>
    have hs : ∀ n x, Wire.Has (Wire.string n x) n := fun n x => (Wire.Has.raw _).cast (by simp; omega)
    exact (Wire.Has.raw _).cons <| .cons (hs 6 _) <| .cons (hs 7 _) .nil
  | engineeringMode f =>
    exact (Wire.Has.raw _).cons <| .cons (.cons (.byte _) <| .cons (.number 2 _) .nil) <| .cons (.raw _) .nil
  | phyStatus p =>
    have hc : ∀ a, Wire.Has (Wire.channelStatus a) 3 := fun a => (Wire.Has.packed 2 _).cons <| .cons (.raw _) .nil
    exact ((Wire.Has.number 4 _).cons <| .cons (.number 4 _) <| .cons (.number 4 _) <| .cons (.number 2 _) <|
      .cons (.raw _) .nil).append (.all hc p.channelStatus)
  | dllConfig f => exact .raw _
  | dllStatus f =>
    exact (Wire.Has.raw _).cons <| .cons (.byte _) <| .cons (.number 2 _) <| .cons (.number 2 _) <|
      .cons (.number 4 _) <| .cons (.number 4 _) .nil
  | nwlSecurityKey f => exact .hostNumber _ 16 _
  | other b => exact .raw _

/-- **C21** size: whatever the content, its encoding has the number of bytes of its kind. -/
theorem C21_size (cfg : Cfg) (f : File) (h : Spec.addressFits f = true) (bytes : List U8)
    (hb : (f.write cfg).toBytes = .ok bytes) : bytes.length = Spec.fileBytes f := by
  rw [(File.lay cfg f).toBytes] at hb
  exact Wire.file_has _ f h bytes (Wire.result_ok hb)

theorem File.bits_eq (f : File) : f.bits / 8 = Spec.fileBytes f := by
  cases f <;> simp [File.bits, Spec.fileBytes] <;> omega

theorem File.read_structured {fid : FileId} (h : Spec.structuredFile fid = true) (cfg : Cfg) (l l' : U32) :
    File.read cfg fid l = File.read cfg fid l' := by
  cases fid <;> simp [Spec.structuredFile] at h <;> rfl

theorem File.WF.fits {fid : FileId} {f : File} (h : f.WF fid) : Spec.addressFits f = true := by
  cases f <;> simp_all [File.WF, Spec.addressFits]

/-- **C21** round trip: a system file with representable content, read under its file id and whatever
length was declared, comes back unchanged and nothing behind it is touched. -/
theorem C21_roundtrip (cfg : Cfg) (fid : FileId) (f : File) (h : f.WF fid)
    (hs : Spec.structuredFile fid = true) (l : U32) :
    ∃ bytes, (f.write cfg).toBytes = .ok bytes ∧ bytes.length = Spec.fileBytes f ∧
      derivedTryFrom (File.read cfg fid l).run bytes = .ok f ∧
      ∀ t, derivedFromBytes (File.read cfg fid l).run (bytes ++ t, 0) = .ok ((t, 0), f) := by
  by_cases hf : Spec.fileBytes f < 2 ^ 32
  · rw [File.read_structured hs cfg l (BitVec.ofNat 32 (Spec.fileBytes f))]
    obtain ⟨bytes, hb, h1, h2⟩ := (File.rt (cfg := cfg) (l := BitVec.ofNat 32 (Spec.fileBytes f)) h (by
      rw [File.bits_eq, BitVec.toNat_ofNat, Nat.mod_eq_of_lt hf])).derived (File.mod8 cfg f)
    exact ⟨bytes, hb, C21_size cfg f h.fits bytes hb, h1, h2⟩
  · exfalso
    cases f <;> simp only [Spec.fileBytes] at hf <;> try omega
    · have := h.2.1; omega
    · have := h.1; rw [hs] at this; cases this

/-- **C21** for the types themselves, which have entry points of their own. -/
theorem C21_types (cfg : Cfg) :
    (∀ f : AccessProfile, f.WF → ∃ bytes, f.write.toBytes = .ok bytes ∧ bytes.length = 65 ∧
      derivedTryFrom AccessProfile.read.run bytes = .ok f) ∧
    (∀ f : FactorySettings, ∃ bytes, f.write.toBytes = .ok bytes ∧ bytes.length = 56 ∧
      derivedTryFrom FactorySettings.read.run bytes = .ok f) ∧
    (∀ f : FirmwareVersion, f.WF → ∃ bytes, f.write.toBytes = .ok bytes ∧ bytes.length = 15 ∧
      derivedTryFrom FirmwareVersion.read.run bytes = .ok f) ∧
    (∀ f : EngineeringMode, ∃ bytes, f.write.toBytes = .ok bytes ∧ bytes.length = 7 ∧
      derivedTryFrom EngineeringMode.read.run bytes = .ok f) ∧
    (∀ f : PhyStatus, f.WF → ∃ bytes, f.write.toBytes = .ok bytes ∧
      bytes.length = 15 + 3 * f.channelStatus.length ∧ derivedTryFrom PhyStatus.read.run bytes = .ok f) ∧
    (∀ f : DllConfig, ∃ bytes, f.write.toBytes = .ok bytes ∧ bytes.length = 7 ∧
      derivedTryFrom DllConfig.read.run bytes = .ok f) ∧
    (∀ f : DllStatus, ∃ bytes, f.write.toBytes = .ok bytes ∧ bytes.length = 16 ∧
      derivedTryFrom DllStatus.read.run bytes = .ok f) ∧
    (∀ f : SecurityKey, ∃ bytes, (f.write cfg).toBytes = .ok bytes ∧ bytes.length = 16 ∧
      derivedTryFrom (SecurityKey.read cfg).run bytes = .ok f) := by
  have key : ∀ {α : Type} {p : P α} {w : W} {a : α} (f : File), RT p w a → w = f.write cfg →
      Spec.addressFits f = true → ∃ bytes, w.toBytes = .ok bytes ∧ bytes.length = Spec.fileBytes f ∧
        derivedTryFrom p.run bytes = .ok a := by
    rintro α p w a f h rfl hf
    obtain ⟨bytes, hb, h1, -⟩ := h.derived (File.mod8 cfg f)
    exact ⟨bytes, hb, C21_size cfg f hf bytes hb, h1⟩
  exact ⟨fun f h => key (.accessProfile 0 f) (AccessProfile.rt h) rfl rfl,
    fun f => key (.factorySettings f) (FactorySettings.rt f) rfl rfl,
    fun f h => key (.firmwareVersion f) (FirmwareVersion.rt h) rfl rfl,
    fun f => key (.engineeringMode f) (EngineeringMode.rt f) rfl rfl,
    fun f h => key (.phyStatus f) (PhyStatus.rt h) rfl rfl,
    fun f => key (.dllConfig f) (DllConfig.rt f) rfl rfl,
    fun f => key (.dllStatus f) (DllStatus.rt f) rfl rfl,
    fun f => key (.nwlSecurityKey f) (SecurityKey.rt cfg f) rfl rfl⟩

example : File.WF .uId (.uId (.uId 0x0102030405060708)) ∧ Spec.structuredFile .uId = true := ⟨⟨rfl, rfl⟩, rfl⟩
example : File.WF (.accessProfile 3) (.accessProfile 3 ⟨⟨.band868, .loRate, .pn9⟩,
    Vector.replicate 4 ⟨1, ⟨112, false⟩⟩, Vector.replicate 8 ⟨0, 1, 2, 3, 4⟩⟩) := by
  refine ⟨rfl, fun s hs => ?_⟩
  rw [Vector.mem_replicate] at hs
  rw [hs.2]
  exact ⟨rfl, by decide⟩
example : File.WF .phyStatus (.phyStatus (PhyStatus.new 1 2 3 4 [⟨⟨.band868, .khz25, 5⟩, 0x80⟩])) := by
  refine ⟨rfl, ?_, ?_⟩ <;> decide

/-! ## C23 -/

/-- The file ids with a name of their own. -/
def Spec.namedFileId (b : U8) : Bool :=
  let n := b.toNat
  n ≤ 0x06 ∨ (0x08 ≤ n ∧ n ≤ 0x13) ∨ (0x17 ≤ n ∧ n ≤ 0x19) ∨ n = 0x1B ∨ n = 0x1C ∨ (0x20 ≤ n ∧ n ≤ 0x2E)

/-- **C23** Every byte converts, and named ids convert back to the same byte. -/
theorem C23_named_partial (b : U8) :
    ∃ f, FileId.tryFrom b = .ok f ∧ (Spec.namedFileId b = true → FileId.into f = .ok b) := by
  refine ⟨_, rfl, ?_⟩
  revert b
  refine U8.forall ?_
  decide +kernel

/-- **C23** fails for all other ids: converting back panics. -/
theorem C23_violates (b : U8) (h : Spec.namedFileId b = false) :
    ∃ f, FileId.tryFrom b = .ok f ∧ FileId.into f = .error (.fault .panic) := by
  refine ⟨_, rfl, ?_⟩
  revert b
  refine U8.forall ?_
  decide +kernel

/-- **C23** from the other side: an id that converts to a byte is what that byte converts to. -/
theorem C23_back (f : FileId) (b : U8) (h : FileId.into f = .ok b) : FileId.tryFrom b = .ok f := by
  unfold FileId.into at h
  cases f with
  | accessProfile i =>
    revert i b
    decide +kernel
  | _ => simp [FileId.id?] at h <;> subst h <;> rfl

example : Spec.namedFileId 0x0E = true ∧ Spec.namedFileId 0x1A = false := by decide

/-! ## C22 -/

/-- The actions that carry file data. -/
def Spec.fileData? : Action → Option Op.FileData
  | .writeFileData o | .writeFileDataFlush o | .returnFileData o => some o
  | _ => none

theorem P.bind_inv {α β : Type} {p : P α} {f : α → P β} {s s' : List Bool} {b : β}
    (h : (p.bind f).eval s = .ok (b, s')) :
    ∃ a s1, p.eval s = .ok (a, s1) ∧ (f a).eval s1 = .ok (b, s') := by
  rw [P.eval_bind] at h
  split at h
  · exact ⟨_, _, by assumption, h⟩
  · cases h

theorem P.u8_byte (b : U8) (t : List U8) : P.u8.eval (bytesBits (b :: t)) = .ok (b, bytesBits t) := by
  obtain ⟨bs, hw, hd⟩ := RT.u8 b
  have : bytesBits (b :: t) = bs ++ bytesBits t := by
    injection hw with hw
    rw [← hw]
    rfl
  rw [this]
  exact hd _

theorem Action.fromBytes_inv {cfg : Cfg} {data : List U8} {rest : Rest} {a : Action}
    (h : Action.fromBytes cfg (data, 0) = .ok (rest, a)) (ht : a.isTx = false) :
    ∃ p q, data = p ++ q ∧ p ≠ [] ∧ Action.decode cfg (bytesBits data) = .ok (a, bytesBits q) ∧ rest = (q.drop 1, 0) := by
  cases hd : Action.decode cfg (bytesBits data) with
  | error e => rw [(Action.fromBytes_err hd).1] at h; cases h
  | ok x =>
    obtain ⟨a', s'⟩ := x
    have ha : a' = a := by
      obtain ⟨r', hr, -⟩ := Action.read_aligned_ok (cfg := cfg) (Rd.new_aligned data)
        (by rw [Rd.new_rem]; exact hd)
      unfold Action.fromBytes Dash7.fromBytes at h
      dsimp only at h
      rw [startAt_zero, hr] at h
      dsimp only at h
      split at h
      · cases h; rfl
      · cases h
    subst ha
    obtain ⟨p, q, h1, rfl, h3, h4, -⟩ := Action.fromBytes_ok hd ht
    rw [h4] at h
    injection h with h
    injection h with h
    exact ⟨p, q, h1, h3, rfl, h.symm⟩

theorem Spec.fileData?_tx {a : Action} {o : Op.FileData} (h : Spec.fileData? a = some o) : a.isTx = false := by
  cases a <;> first | rfl | cases h

theorem Action.decode_fileData {cfg : Cfg} {s s' : List Bool} {a : Action} {o : Op.FileData}
    (h : Action.decode cfg s = .ok (a, s')) (ho : Spec.fileData? a = some o) :
    (Op.FileData.read cfg).eval s = .ok (o, s') := by
  have key : ∀ {f : Op.FileData → Action} {o : Op.FileData},
      ((Op.FileData.read cfg).bind fun o => P.pure (f o)).eval s = .ok (f o, s') →
      (∀ x y, f x = f y → x = y) → (Op.FileData.read cfg).eval s = .ok (o, s') := by
    intro f o hd hf
    obtain ⟨x, s1, h1, h2⟩ := P.bind_inv hd
    injection h2 with h2
    injection h2 with h2 h3
    rw [← hf _ _ h2, ← h3]
    exact h1
  obtain ⟨c, -, -, hop, -, hd, -⟩ := Action.decode_ok h
  have hop' : opAt 2 s = ⟨BitVec.ofNat 8 (Spec.opcodeOf a)⟩ := by
    rw [hop]; simp
  rw [hop'] at hd
  cases a <;> simp only [Spec.fileData?, reduceCtorEq, Option.some.injEq] at ho <;> subst ho
  · exact key hd (fun _ _ h => by injection h)
  · exact key hd (fun _ _ h => by injection h)
  · exact key hd (fun _ _ h => by injection h)

/-- **C22** What is consumed: of an action with file data, header byte, file id and offset precede the
declared length; after it come `body` and the rest. `body` is what decides (anything may follow it), and
it is as long as declared for plain files, but of the size of its kind for the structured system files. -/
theorem C22_consumed (cfg : Cfg) (data : List U8) (rest : Rest) (a : Action) (o : Op.FileData)
    (h : Action.fromBytes cfg (data, 0) = .ok (rest, a)) (ho : Spec.fileData? a = some o) :
    ∃ head fid x l body q offset declared, data = head :: fid :: (x ++ (l ++ (body ++ q))) ∧
      o.offset = ⟨fid, offset⟩ ∧
      derivedTryFrom Length.read.run x = .ok offset ∧
      derivedTryFrom Length.read.run l = .ok declared ∧
      body.length = (if Spec.structuredFile (FileId.ofId fid) then Spec.fileBytes o.data
        else declared.val.toNat) ∧
      (Spec.structuredFile (FileId.ofId fid) = false → o.data = .other body) ∧
      rest = (q.drop 1, 0) ∧
      ∀ q', Action.fromBytes cfg (head :: fid :: (x ++ (l ++ (body ++ q'))), 0) = .ok ((q'.drop 1, 0), a) := by
  have ht := Spec.fileData?_tx ho
  obtain ⟨p, q, rfl, -, hd, rfl⟩ := Action.fromBytes_inv h ht
  have hr := Action.decode_fileData hd ho
  obtain ⟨hh, s1, e1, hr⟩ := P.bind_inv (p := ActionHeader.read) hr
  obtain ⟨oo, s2, e2, hr⟩ := P.bind_inv (p := OpCode.read) hr
  obtain ⟨ff, s4, e3, hr⟩ := P.bind_inv (p := FileOffset.read) hr
  obtain ⟨fi, s3, e4, e3⟩ := P.bind_inv (p := P.u8) e3
  obtain ⟨off, s5, e5, e3⟩ := P.bind_inv (p := Length.read) e3
  obtain ⟨dd, s6, e6, hr⟩ := P.bind_inv (p := Op.FileData.readData cfg ff) hr
  obtain ⟨len, s7, e7, e8⟩ := P.bind_inv (p := Length.read) e6
  cases e3
  have hs7 : s6 = bytesBits q := by injection hr with hr; injection hr with hr1 hr2
  have ho' : o = ⟨hh, oo, ⟨fi, off⟩, dd⟩ := by injection hr with hr; injection hr with hr1 hr2; exact hr1.symm
  subst hs7
  subst ho'
  obtain ⟨c1, g1, d1⟩ := P.eval_ok _ e1
  obtain ⟨c2, rfl, d2⟩ := P.eval_ok _ e2
  obtain ⟨c3, rfl, d3⟩ := P.eval_ok _ e4
  obtain ⟨c4, rfl, d4⟩ := P.eval_ok _ e5
  obtain ⟨c5, rfl, d5⟩ := P.eval_ok _ e7
  obtain ⟨c6, rfl, d6⟩ := P.eval_ok _ e8
  have l1 := (ActionHeader.post _ _ _ (d1 [])).2
  have l2 := (OpCode.post _ _ _ (d2 [])).2
  have l3 := (Post.u8 _ _ _ (d3 [])).1
  obtain ⟨-, -, k4, -, l4⟩ := Length.post' _ _ _ (d4 [])
  obtain ⟨hlen, -, k5, -, l5⟩ := Length.post' _ _ _ (d5 [])
  obtain ⟨⟨hwf, hoth⟩, l6⟩ := File.post cfg _ _ hlen _ _ _ (d6 [])
  rw [← List.append_assoc c1] at g1
  obtain ⟨p1, q1, hp1, b1, g2, n1⟩ := bytesBits_suffix g1 (by rw [List.length_append]; omega)
  obtain ⟨p2, q2, rfl, b2, g3, n2⟩ := bytesBits_suffix g2.symm (by omega)
  obtain ⟨x, q3, rfl, b3, g4, n3⟩ := bytesBits_suffix g3.symm (by omega)
  obtain ⟨l, q4, rfl, b4, g5, n4⟩ := bytesBits_suffix g4.symm (by omega)
  obtain ⟨body, q5, rfl, b5, g6, n5⟩ := bytesBits_suffix g5.symm (by rw [l6]; exact File.bits_dvd _)
  obtain rfl := bytesBits_inj g6
  rw [List.length_append] at n1
  match p1, p2, (show p1.length = 1 by omega), (show p2.length = 1 by omega) with
  | [head], [fid], _, _ =>
  have hfid : fi = fid := by
    have := P.u8_byte fid []
    rw [← b2] at this
    have h3 := d3 []
    rw [List.append_nil, this] at h3
    injection h3 with h3
    injection h3 with h3
    exact h3.symm
  subst hfid
  have hbody : body.length = (if Spec.structuredFile (FileId.ofId fi) then Spec.fileBytes dd
      else len.val.toNat) := by
    rw [n5, l6, File.bits_eq]
    split
    · rfl
    · rename_i hns
      cases dd with
      | other b => exact hoth b rfl
      | _ =>
        exfalso
        apply hns
        simp only [File.WF] at hwf
        first | rw [hwf]; rfl | rw [hwf.1]; rfl
  refine ⟨head, fi, x, l, body, q, off, len, hp1, rfl, ?_, ?_, hbody, ?_, rfl, ?_⟩
  · obtain ⟨_, y, -, hy, -, h2⟩ := derived_ok (p := Length.read) (data := x) (a := off) (s' := [])
      (by rw [← b3]; simpa using d4 []) (by simp)
    rw [h2, if_pos (bytesBits_eq_nil.1 hy.symm)]
  · obtain ⟨_, y, -, hy, -, h2⟩ := derived_ok (p := Length.read) (data := l) (a := len) (s' := [])
      (by rw [← b4]; simpa using d5 []) (by simp)
    rw [h2, if_pos (bytesBits_eq_nil.1 hy.symm)]
  · intro hns
    rw [if_neg (by rw [hns]; simp)] at hbody
    obtain ⟨bs, hw, hrt⟩ := RT.bytes hbody
    have hbs : bs = bytesBits body := by
      rw [W.list_u8] at hw; injection hw with hw; exact hw.symm
    have h1 := hrt []
    have h2 := d6 []
    rw [b5] at h2
    rw [hbs] at h1
    dsimp only at h2
    have h3 : File.read cfg (FileId.ofId fi) len.val = (P.count P.u8 len.val.toNat).bind fun b => P.pure (.other b) := by
      revert hns
      cases FileId.ofId fi <;> simp [Spec.structuredFile] <;> rfl
    rw [h3, P.eval_bind, h1] at h2
    injection h2 with h2
    injection h2 with h2
    exact h2.symm
  · intro q'
    obtain ⟨c, hc, -, -, -, -, hrd⟩ := Action.decode_ok hd
    have hc' : c = bytesBits (head :: fi :: (x ++ (l ++ body))) := by
      have e : p ++ q = (head :: fi :: (x ++ (l ++ body))) ++ q := by rw [hp1]; simp
      rw [e, bytesBits_append] at hc
      exact (List.append_cancel_right hc).symm
    have e : head :: fi :: (x ++ (l ++ (body ++ q'))) = (head :: fi :: (x ++ (l ++ body))) ++ q' := by simp
    have hdq := hrd (bytesBits q')
    rw [hc', ← bytesBits_append, ← e] at hdq
    obtain ⟨p', q'', h1, h2, -, h4, -⟩ := Action.fromBytes_ok hdq ht
    rw [h4, bytesBits_inj h2]

/-- **C22** holds for plain files: exactly the declared number of bytes are the content. -/
theorem C22_plain_partial (cfg : Cfg) (data : List U8) (rest : Rest) (a : Action) (o : Op.FileData)
    (h : Action.fromBytes cfg (data, 0) = .ok (rest, a)) (ho : Spec.fileData? a = some o)
    (hs : Spec.structuredFile (FileId.ofId o.offset.fileId) = false) :
    ∃ head x l body q declared, data = head :: o.offset.fileId :: (x ++ (l ++ (body ++ q))) ∧
      derivedTryFrom Length.read.run x = .ok o.offset.offset ∧
      derivedTryFrom Length.read.run l = .ok declared ∧ body.length = declared.val.toNat ∧
      o.data = .other body ∧ rest = (q.drop 1, 0) := by
  obtain ⟨head, fid, x, l, body, q, offset, declared, h1, h2, h3, h4, h5, h6, h7, -⟩ :=
    C22_consumed cfg data rest a o h ho
  rw [h2] at hs ⊢
  rw [if_neg (by rw [hs]; simp)] at h5
  exact ⟨head, x, l, body, q, declared, h1, h3, h4, h5, h6 hs, h7⟩

/-- **C22** fails for structured files: a UID file with a declared length of 3 swallows 8 bytes, the last five
of them belonging to what follows. -/
theorem C22_structured_violates (cfg : Cfg) :
    Action.fromBytes cfg ([0x20, 0x00, 0x00, 3, 1, 2, 3, 4, 5, 6, 7, 8, 9, 10], 0)
      = .ok (([10], 0), .returnFileData ⟨⟨false, false⟩, ⟨0x20⟩, ⟨0, ⟨0⟩⟩, .uId (.uId 0x0102030405060708)⟩) := by
  rcases cfg with ⟨v, a, b, c, d⟩
  cases v <;> cases a <;> cases b <;> cases c <;> cases d <;> decide +kernel

example : Action.fromBytes ⟨.spec, false, false, false, false⟩ ([0x20, 0x40, 0x00, 2, 1, 2, 3, 4], 0)
    = .ok (([4], 0), .returnFileData ⟨⟨false, false⟩, ⟨0x20⟩, ⟨0x40, ⟨0⟩⟩, .other [1, 2]⟩) ∧
    Spec.structuredFile (FileId.ofId 0x40) = false := by decide +kernel

/-! ## C29 -/

theorem strBytes_append (s t : String) : strBytes (s ++ t) = strBytes s ++ strBytes t := by
  simp [strBytes_def]

theorem strBytes_inj {s t : String} (h : strBytes s = strBytes t) : s = t := by
  have h1 := (bytesStr?_iff (strBytes t) s).2 h
  have h2 := (bytesStr?_iff (strBytes t) t).2 rfl
  rw [h1] at h2
  exact Option.some.inj h2

/-- A string of `n` NUL characters. -/
def Spec.nuls (n : Nat) : String := String.ofList (List.replicate n '\x00')

theorem strBytes_nuls (n : Nat) : strBytes (Spec.nuls n) = List.replicate n 0 := by
  unfold Spec.nuls
  rw [strBytes_def]
  simp
  induction n with
  | zero => rfl
  | succ n ih =>
    rw [List.replicate_succ, List.replicate_succ]
    simp [List.utf8Encode]
    simp [List.utf8Encode] at ih
    rw [ih]
    rfl

/-- The bytes of a string in UTF-8. -/
def Spec.utf8 (s : String) : List U8 := s.toUTF8.data.toList.map UInt8.toBitVec

/-- `t` is what comes back of a string `s` stored in `n` bytes: `s` filled up with NUL, or the part of `s`
that takes the first `n` bytes. -/
def Spec.stored (n : Nat) (s t : String) : Prop :=
  if s.utf8ByteSize ≤ n then t = s ++ Spec.nuls (n - s.utf8ByteSize)
  else t.utf8ByteSize = n ∧ Spec.utf8 t <+: Spec.utf8 s

theorem bytesStr?_stringBuf (n : Nat) (s t : String) :
    bytesStr? (stringBuf n s) = some t ↔ Spec.stored n s t := by
  rw [bytesStr?_iff]
  have hl := strBytes_length s
  unfold Spec.stored stringBuf
  split
  · rename_i hs
    rw [List.take_of_length_le (by omega), ← strBytes_nuls, ← strBytes_append, hl]
    exact ⟨strBytes_inj, fun h => by rw [h]⟩
  · rename_i hs
    rw [show n - (strBytes s).length = 0 by omega, List.replicate_zero, List.append_nil, ← strBytes_length t]
    constructor
    · intro h
      refine ⟨by rw [h, List.length_take]; omega, ?_⟩
      show strBytes t <+: strBytes s
      rw [h]
      exact List.take_prefix _ _
    · rintro ⟨h1, h2⟩
      have h2 : strBytes t <+: strBytes s := h2
      rw [← h1]
      exact List.prefix_iff_eq_take.1 h2

theorem readString_eval (n : Nat) (buf : List U8) (hn : buf.length = n) (rest : List Bool) :
    (readString n).eval (bytesBits buf ++ rest) =
      match bytesStr? buf with
      | some s => .ok (s, rest)
      | none => .error (.fault .parse) := by
  obtain ⟨bs, hw, hd⟩ := RT.bytes hn
  rw [W.list_u8] at hw
  injection hw with hw
  unfold readString
  simp only [P.bind_eq]
  rw [P.eval_bind, hw, hd rest]
  dsimp only
  cases bytesStr? buf <;> rfl

/-- **C29** layout: two version bytes, six bytes of name, seven of SHA. -/
theorem C29_layout (f : FirmwareVersion) :
    f.write.toBytes = .ok (f.major :: f.minor ::
      ((Spec.utf8 f.applicationName).take 6 ++ List.replicate (6 - f.applicationName.utf8ByteSize) 0 ++
       ((Spec.utf8 f.gitSha1).take 7 ++ List.replicate (7 - f.gitSha1.utf8ByteSize) 0))) := by
  rw [(FirmwareVersion.lay f).toBytes, ← strBytes_length, ← strBytes_length]
  simp [Wire.firmwareVersion, Wire.join, Wire.string, Wire.raw, Wire.result, Spec.utf8, strBytes]

theorem FirmwareVersion.decode_encode (f : FirmwareVersion) (bytes : List U8) (h : f.write.toBytes = .ok bytes)
    (g : FirmwareVersion) :
    derivedTryFrom FirmwareVersion.read.run bytes = .ok g ↔ g.major = f.major ∧ g.minor = f.minor ∧
      bytesStr? (stringBuf 6 f.applicationName) = some g.applicationName ∧
      bytesStr? (stringBuf 7 f.gitSha1) = some g.gitSha1 := by
  have hb : bytes = f.major :: f.minor :: (stringBuf 6 f.applicationName ++ stringBuf 7 f.gitSha1) := by
    rw [C29_layout] at h
    injection h with h
    rw [← h]
    unfold stringBuf
    rw [strBytes_length, strBytes_length]
    rfl
  have he : FirmwareVersion.read.eval (bytesBits bytes) =
      match bytesStr? (stringBuf 6 f.applicationName), bytesStr? (stringBuf 7 f.gitSha1) with
      | some n, some s => .ok (⟨f.major, f.minor, n, s⟩, [])
      | _, _ => .error (.fault .parse) := by
    rw [hb]
    unfold FirmwareVersion.read
    simp only [P.bind_eq]
    rw [P.eval_bind, P.u8_byte]
    dsimp only
    rw [P.eval_bind, P.u8_byte]
    dsimp only
    rw [P.eval_bind, bytesBits_append, readString_eval 6 _ (stringBuf_length 6 _)]
    cases bytesStr? (stringBuf 6 f.applicationName) with
    | none => rfl
    | some n =>
      dsimp only
      rw [P.eval_bind, ← List.append_nil (bytesBits (stringBuf 7 f.gitSha1)), readString_eval 7 _ (stringBuf_length 7 _)]
      cases bytesStr? (stringBuf 7 f.gitSha1) <;> rfl
  cases h1 : bytesStr? (stringBuf 6 f.applicationName) with
  | none =>
    rw [h1] at he
    rw [(derived_err he).2]
    simp
  | some n =>
    cases h2 : bytesStr? (stringBuf 7 f.gitSha1) with
    | none =>
      rw [h1, h2] at he
      rw [(derived_err he).2]
      simp
    | some s =>
      rw [h1, h2] at he
      obtain ⟨x, q, -, hq, -, h4⟩ := derived_ok he (by simp)
      rw [h4, if_pos (bytesBits_eq_nil.1 hq.symm)]
      cases g
      simp
      constructor
      · rintro ⟨rfl, rfl, rfl, rfl⟩; simp
      · rintro ⟨rfl, rfl, rfl, rfl⟩; simp

/-- **C29** What comes back: exactly the stored strings. If a string is cut inside a character nothing comes back. -/
theorem C29_read_back (f g : FirmwareVersion) (bytes : List U8) (h : f.write.toBytes = .ok bytes) :
    derivedTryFrom FirmwareVersion.read.run bytes = .ok g ↔ g.major = f.major ∧ g.minor = f.minor ∧
      Spec.stored 6 f.applicationName g.applicationName ∧ Spec.stored 7 f.gitSha1 g.gitSha1 := by
  rw [FirmwareVersion.decode_encode f bytes h, bytesStr?_stringBuf, bytesStr?_stringBuf]

theorem Spec.stored_self (n : Nat) (s : String) : Spec.stored n s s ↔ s.utf8ByteSize = n := by
  unfold Spec.stored
  split
  · constructor
    · intro h
      have := congrArg String.utf8ByteSize h
      have hz := strBytes_length (Spec.nuls (n - s.utf8ByteSize))
      rw [strBytes_nuls, List.length_replicate] at hz
      rw [String.utf8ByteSize_append, ← hz] at this
      omega
    · intro h
      rw [h, Nat.sub_self]
      exact (String.append_empty).symm
  · constructor
    · rintro ⟨h, -⟩; exact h
    · intro h; omega

/-- **C29** A firmware version comes back unchanged exactly when its strings take 6 and 7 bytes. -/
theorem C29_exact (f : FirmwareVersion) (bytes : List U8) (h : f.write.toBytes = .ok bytes) :
    derivedTryFrom FirmwareVersion.read.run bytes = .ok f ↔
      f.applicationName.utf8ByteSize = 6 ∧ f.gitSha1.utf8ByteSize = 7 := by
  rw [C29_read_back f f bytes h, Spec.stored_self, Spec.stored_self]
  simp

/-- **C29** Shorter strings come back filled up with NUL. -/
theorem C29_short (f : FirmwareVersion) (bytes : List U8) (h : f.write.toBytes = .ok bytes)
    (hn : f.applicationName.utf8ByteSize ≤ 6) (hs : f.gitSha1.utf8ByteSize ≤ 7) :
    derivedTryFrom FirmwareVersion.read.run bytes = .ok ⟨f.major, f.minor,
      f.applicationName ++ Spec.nuls (6 - f.applicationName.utf8ByteSize),
      f.gitSha1 ++ Spec.nuls (7 - f.gitSha1.utf8ByteSize)⟩ := by
  rw [C29_read_back f _ bytes h]
  refine ⟨rfl, rfl, ?_, ?_⟩
  · rw [Spec.stored, if_pos hn]
  · rw [Spec.stored, if_pos hs]

/-- **C29** Longer strings come back cut off, provided the cut does not split a character. -/
theorem C29_long_partial (f : FirmwareVersion) (n n' g g' : String) (bytes : List U8)
    (h : f.write.toBytes = .ok bytes) (hn : f.applicationName = n ++ n') (hn6 : n.utf8ByteSize = 6)
    (hg : f.gitSha1 = g ++ g') (hg7 : g.utf8ByteSize = 7) :
    derivedTryFrom FirmwareVersion.read.run bytes = .ok ⟨f.major, f.minor, n, g⟩ := by
  have key : ∀ (k : Nat) (s t u : String), s = t ++ u → t.utf8ByteSize = k → Spec.stored k s t := by
    rintro k s t u rfl rfl
    unfold Spec.stored
    split
    · rename_i hle
      rw [String.utf8ByteSize_append] at hle ⊢
      have hu : u = "" := String.utf8ByteSize_eq_zero_iff.1 (by omega)
      subst hu
      rw [String.append_empty]
      simp [Spec.nuls]
    · exact ⟨rfl, strBytes u, (strBytes_append t u).symm⟩
  rw [C29_read_back f _ bytes h]
  exact ⟨rfl, rfl, key _ _ _ _ hn hn6, key _ _ _ _ hg hg7⟩

/-- **C29** fails if the cut splits a character: such a file cannot be read at all. -/
theorem C29_split_violates :
    ∃ (f : FirmwareVersion) (bytes : List U8), f.write.toBytes = .ok bytes ∧
      derivedTryFrom FirmwareVersion.read.run bytes = .error (.fault .parse) :=
  ⟨⟨1, 2, "abcdeé", "0123456"⟩, _, C29_layout _, by decide +kernel⟩

example : (FirmwareVersion.mk 1 2 "d7a" "0123456").applicationName.utf8ByteSize ≤ 6 := by decide
example : derivedTryFrom FirmwareVersion.read.run [1, 2, 100, 55, 97, 0, 0, 0, 48, 49, 50, 51, 52, 53, 54]
    = .ok ⟨1, 2, "d7a\x00\x00\x00", "0123456"⟩ := by decide +kernel

/-! ## C30 -/

theorem derivedTryFrom_post {α : Type} {p : P α} {Q : α → Nat → Prop} (hp : Post p Q) {data : List U8} {a : α}
    (h : derivedTryFrom p.run data = .ok a) : ∃ n, Q a n := by
  obtain ⟨s', he, -⟩ := derivedTryFrom_inv h
  obtain ⟨c, hc, hd⟩ := P.eval_ok _ he
  exact ⟨_, hp c [] a (hd [])⟩

/-- **C30** `PhyStatus::new` round trips exactly up to 255 channels (of 11-bit index each). -/
theorem C30_new_partial (u r t : U32) (d : U16) (cs : List ChannelStatus) (bytes : List U8)
    (h : (PhyStatus.new u r t d cs).write.toBytes = .ok bytes) :
    derivedTryFrom PhyStatus.read.run bytes = .ok (PhyStatus.new u r t d cs) ↔
      cs.length < 256 ∧ ∀ c ∈ cs, c.identifier.index.toNat < 2 ^ 11 := by
  constructor
  · intro hd
    obtain ⟨n, ⟨h1, h2⟩, -⟩ := derivedTryFrom_post PhyStatus.post hd
    refine ⟨?_, h2⟩
    have : (BitVec.ofNat 8 cs.length).toNat = cs.length := h1
    rw [← this]
    exact (BitVec.ofNat 8 cs.length).isLt
  · rintro ⟨h1, h2⟩
    have hw : (PhyStatus.new u r t d cs).WF := by
      refine ⟨?_, h2⟩
      show (BitVec.ofNat 8 cs.length).toNat = cs.length
      rw [BitVec.toNat_ofNat, Nat.mod_eq_of_lt h1]
    obtain ⟨bytes', hb, hd, -⟩ := (PhyStatus.rt hw).derived (File.mod8 ⟨.spec, false, false, false, false⟩ (.phyStatus _))
    rw [h] at hb
    cases hb
    exact hd

/-- **C30** The list always has an encoding: 15 bytes and 3 for every channel, with the count (cut down to a
byte) in front of the list. -/
theorem C30_encodes (u r t : U32) (d : U16) (cs : List ChannelStatus) :
    ∃ bytes, (PhyStatus.new u r t d cs).write.toBytes = .ok bytes ∧ bytes.length = 15 + 3 * cs.length ∧
      bytes[14]? = some (BitVec.ofNat 8 cs.length) := by
  obtain ⟨tail, htail⟩ : ∃ tail, Wire.join (cs.map Wire.channelStatus) = some tail := by
    induction cs with
    | nil => exact ⟨[], rfl⟩
    | cons c cs ih =>
      obtain ⟨tail, ih⟩ := ih
      obtain ⟨x, hx⟩ : ∃ x, Wire.channelStatus c = some x := ⟨_, rfl⟩
      exact ⟨x ++ tail, by rw [List.map_cons, hx, Wire.join, ih]⟩
  have hb : (PhyStatus.new u r t d cs).write.toBytes = .ok (Spec.bigEndian 4 u.toNat ++ (Spec.bigEndian 4 r.toNat ++
      (Spec.bigEndian 4 t.toNat ++ (Spec.bigEndian 2 d.toNat ++ ([BitVec.ofNat 8 cs.length] ++ tail))))) := by
    rw [(PhyStatus.lay _).toBytes]
    simp only [Wire.phyStatus, PhyStatus.new, List.cons_append, List.nil_append, Wire.join, Wire.number, Wire.raw,
      htail, Wire.result]
  refine ⟨_, hb, C21_size ⟨.spec, false, false, false, false⟩ (.phyStatus (PhyStatus.new u r t d cs)) rfl _ hb, ?_⟩
  rw [List.getElem?_append_right (by rw [Spec.bigEndian_length]; omega), Spec.bigEndian_length,
    List.getElem?_append_right (by rw [Spec.bigEndian_length]; omega), Spec.bigEndian_length,
    List.getElem?_append_right (by rw [Spec.bigEndian_length]; omega), Spec.bigEndian_length,
    List.getElem?_append_right (by rw [Spec.bigEndian_length]; omega), Spec.bigEndian_length]
  rfl

/-- **C30** The stored count is the number of channels as long as that fits a byte. -/
theorem C30_count_partial (u r t : U32) (d : U16) (cs : List ChannelStatus) :
    (PhyStatus.new u r t d cs).channelStatusListLength.toNat = cs.length ↔ cs.length < 256 := by
  show (BitVec.ofNat 8 cs.length).toNat = cs.length ↔ _
  rw [BitVec.toNat_ofNat]
  omega

/-- **C30** fails for lists of 256 channels and more: they are encoded to something that does not decode
to them. -/
theorem C30_violates (u r t : U32) (d : U16) (cs : List ChannelStatus) (h : 256 ≤ cs.length) :
    ∃ bytes, (PhyStatus.new u r t d cs).write.toBytes = .ok bytes ∧
      derivedTryFrom PhyStatus.read.run bytes ≠ .ok (PhyStatus.new u r t d cs) := by
  obtain ⟨bytes, hb, -⟩ := C30_encodes u r t d cs
  refine ⟨bytes, hb, fun hd => ?_⟩
  have := ((C30_new_partial u r t d cs bytes hb).1 hd).1
  omega

/-- **C30** `update` sets the count, and rejects the lists that do not fit. -/
theorem C30_update (p : PhyStatus) :
    (p.channelStatus.length < 256 → ∃ q, p.update = .ok q ∧
      q.channelStatusListLength.toNat = p.channelStatus.length ∧
      q = { p with channelStatusListLength := q.channelStatusListLength }) ∧
    (256 ≤ p.channelStatus.length → ∃ e, p.update = .error e) := by
  constructor
  · intro h
    refine ⟨_, if_pos h, ?_, rfl⟩
    show (BitVec.ofNat 8 p.channelStatus.length).toNat = _
    rw [BitVec.toNat_ofNat, Nat.mod_eq_of_lt h]
  · intro h
    exact ⟨_, if_neg (by omega)⟩

example : ∃ cs : List ChannelStatus, 256 ≤ cs.length ∧ ∀ c ∈ cs, c.identifier.index.toNat < 2 ^ 11 :=
  ⟨List.replicate 300 ⟨⟨.band868, .khz25, 1⟩, 0x80⟩, by decide +kernel, by decide +kernel⟩
example : derivedTryFrom PhyStatus.read.run [0, 0, 0, 1, 0, 0, 0, 2, 0, 0, 0, 3, 0, 4, 1, 0x68, 5, 0x80]
    = .ok (PhyStatus.new 1 2 3 4 [⟨⟨.band868, .khz25, 5⟩, 0x80⟩]) := by decide +kernel

/-! ## C46 -/

/-- **C46** The twelve bytes of a file header. -/
theorem C46_layout (h : Data.FileHeader) :
    h.write.toBytes = .ok (
      BitVec.ofNat 8 (128 * h.permissions.encrypted.toNat + 64 * h.permissions.executable.toNat +
        32 * h.permissions.user.read.toNat + 16 * h.permissions.user.write.toNat +
        8 * h.permissions.user.executable.toNat + 4 * h.permissions.guest.read.toNat +
        2 * h.permissions.guest.write.toNat + h.permissions.guest.executable.toNat) ::
      BitVec.ofNat 8 (128 * h.properties.enabled.toNat + 16 * Wire.actionCondition h.properties.condition +
        Wire.storageClass h.properties.storageClass) ::
      h.alpCommandFileId :: h.interfaceFileId ::
      (Spec.bigEndian 4 h.fileSize.toNat ++ Spec.bigEndian 4 h.allocatedSize.toNat)) := by
  rw [(Data.FileHeader.lay h).toBytes]
  rcases h with ⟨⟨e, x, ⟨a1, a2, a3⟩, ⟨b1, b2, b3⟩⟩, ⟨en, co, st⟩, f1, f2, n, m⟩
  simp only [Wire.fileHeader, Wire.join, Wire.byte, Wire.packed, Wire.number, Wire.raw, Wire.result, List.cons_append,
    List.nil_append, List.append_nil]
  have h1 : Wire.bits [(1, e.toNat), (1, x.toNat), (1, a1.toNat), (1, a2.toNat), (1, a3.toNat), (1, b1.toNat),
      (1, b2.toNat), (1, b3.toNat)] = 128 * e.toNat + 64 * x.toNat + 32 * a1.toNat + 16 * a2.toNat + 8 * a3.toNat +
      4 * b1.toNat + 2 * b2.toNat + b3.toNat := by
    revert e x a1 a2 a3 b1 b2 b3; decide
  have h2 : Wire.bits [(1, en.toNat), (3, Wire.actionCondition co), (2, 0), (2, Wire.storageClass st)]
      = 128 * en.toNat + 16 * Wire.actionCondition co + Wire.storageClass st := by
    cases en <;> cases co <;> cases st <;> rfl
  rw [h1, h2]
  simp [Spec.bigEndian]

/-- **C46** Twelve bytes, and they decode to the header. -/
theorem C46_roundtrip (h : Data.FileHeader) :
    ∃ bytes, h.write.toBytes = .ok bytes ∧ bytes.length = 12 ∧
      derivedTryFrom Data.FileHeader.read.run bytes = .ok h ∧
      ∀ t, derivedFromBytes Data.FileHeader.read.run (bytes ++ t, 0) = .ok ((t, 0), h) := by
  obtain ⟨bytes, hb, h1, h2⟩ := (Data.FileHeader.rt h).derived (Data.FileHeader.mod8 h)
  refine ⟨bytes, hb, ?_, h1, h2⟩
  rw [C46_layout] at hb
  injection hb with hb
  rw [← hb]
  simp [Spec.bigEndian_length]

example : (Data.FileHeader.write ⟨⟨true, false, ⟨true, true, false⟩, ⟨true, false, false⟩⟩, ⟨true, .write, .permanent⟩,
    0x41, 0x42, 0x01020304, 0x05060708⟩).toBytes = .ok [0xB4, 0xA3, 0x41, 0x42, 1, 2, 3, 4, 5, 6, 7, 8] := by
  decide +kernel

#print axioms C21_size
#print axioms C21_roundtrip
#print axioms C21_types
#print axioms C23_named_partial
#print axioms C23_violates
#print axioms C23_back
#print axioms C22_consumed
#print axioms C22_plain_partial
#print axioms C22_structured_violates
#print axioms C29_layout
#print axioms C29_read_back
#print axioms C29_exact
#print axioms C29_short
#print axioms C29_long_partial
#print axioms C29_split_violates
#print axioms C30_new_partial
#print axioms C30_encodes
#print axioms C30_count_partial
#print axioms C30_violates
#print axioms C30_update
#print axioms C46_layout
#print axioms C46_roundtrip

end Dash7
