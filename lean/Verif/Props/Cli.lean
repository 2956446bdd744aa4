import Verif.Model.Cli
import Verif.Props.Decoder
import Verif.Props.Foreground

/-!
# The command line tool
-/

namespace Dash7

/-! ## C38: hexadecimal input -/

/-- The digits, in either case. -/
def Spec.digit (c : Char) (v : Nat) : Prop :=
  "0123456789abcdef".toList[v]? = some c ∨ "0123456789ABCDEF".toList[v]? = some c

/-- The white space characters of Unicode. -/
def Spec.space (c : Char) : Prop :=
  c.toNat ∈ [9, 10, 11, 12, 13, 0x20, 0x85, 0xA0, 0x1680, 0x2000, 0x2001, 0x2002, 0x2003, 0x2004, 0x2005,
    0x2006, 0x2007, 0x2008, 0x2009, 0x200A, 0x2028, 0x2029, 0x202F, 0x205F, 0x3000]

instance (c : Char) : Decidable (Spec.space c) := by unfold Spec.space; infer_instance

/-- Texts that stand for a byte string: two digits per byte, white space anywhere. -/
inductive Spec.Hex : List Char → List U8 → Prop
  | nil : Hex [] []
  | space {c : Char} {cs : List Char} {bs : List U8} : Spec.space c → Hex cs bs → Hex (c :: cs) bs
  | byte {a b : Char} {x y : Nat} {ws cs : List Char} {bs : List U8} :
      Spec.digit a x → (∀ c ∈ ws, Spec.space c) → Spec.digit b y → Hex cs bs →
      Hex (a :: (ws ++ b :: cs)) (BitVec.ofNat 8 (16 * x + y) :: bs)

namespace Cli

theorem isWhitespace_iff (c : Char) : isWhitespace c = true ↔ Spec.space c := by
  unfold isWhitespace Spec.space
  generalize c.toNat = n
  simp only [Bool.or_eq_true, Bool.and_eq_true, decide_eq_true_eq, beq_iff_eq, List.mem_cons,
    List.not_mem_nil, or_false]
  omega

theorem hexVal_iff (c : Char) (v : Nat) : hexVal c = some v ↔ Spec.digit c v := by
  have key : ∀ d : Char, c = d ↔ c.toNat = d.toNat := fun d =>
    ⟨fun h => by rw [h], fun h => Char.ext (UInt32.toNat_inj.1 h)⟩
  unfold Spec.digit
  by_cases hv : v < 16
  · have : v = 0 ∨ v = 1 ∨ v = 2 ∨ v = 3 ∨ v = 4 ∨ v = 5 ∨ v = 6 ∨ v = 7 ∨ v = 8 ∨ v = 9 ∨ v = 10 ∨
      v = 11 ∨ v = 12 ∨ v = 13 ∨ v = 14 ∨ v = 15 := by omega
    unfold hexVal
    rcases this with rfl | rfl | rfl | rfl | rfl | rfl | rfl | rfl | rfl | rfl | rfl | rfl | rfl | rfl |
      rfl | rfl <;> simp [eq_comm, key] <;> (repeat' split) <;> simp <;> omega
  · constructor
    · intro h
      unfold hexVal at h
      simp only at h
      (repeat' split at h) <;> simp at h <;> omega
    · rintro (h | h)
      · have := (List.getElem?_eq_some_iff.1 h).1
        exact absurd this (by simpa using hv)
      · have := (List.getElem?_eq_some_iff.1 h).1
        exact absurd this (by simpa using hv)

theorem Hex.spaces {ws cs : List Char} {bs : List U8} (hw : ∀ c ∈ ws, Spec.space c)
    (h : Spec.Hex cs bs) : Spec.Hex (ws ++ cs) bs := by
  induction ws with
  | nil => exact h
  | cons w ws ih => exact .space (hw w (by simp)) (ih fun c hc => hw c (by simp [hc]))

theorem not_space {c : Char} (h : ¬ (!isWhitespace c) = true) : Spec.space c := by
  rw [← isWhitespace_iff]
  simpa using h

theorem digit_space {c : Char} {v : Nat} (h : Spec.digit c v) : isWhitespace c = false := by
  have h' := (hexVal_iff c v).2 h
  unfold hexVal at h'
  unfold isWhitespace
  simp only at h' ⊢
  generalize c.toNat = n at h' ⊢
  have : (0x30 ≤ n ∧ n ≤ 0x39) ∨ (0x41 ≤ n ∧ n ≤ 0x46) ∨ (0x61 ≤ n ∧ n ≤ 0x66) := by
    (repeat' split at h') <;> simp_all
  simp; omega

theorem decode_iff (s : List Char) (bs : List U8) :
    hexDecode (removeWhitespace s) = some bs ↔ Spec.Hex s bs := by
  constructor
  · intro h
    unfold removeWhitespace at h
    generalize hf : s.filter (fun c => !isWhitespace c) = f at h
    induction f using hexDecode.induct generalizing s bs with
    | case1 =>
      cases h
      have := Hex.spaces (ws := s) (cs := []) (bs := [])
        (fun c hc => not_space (List.filter_eq_nil_iff.1 hf c hc)) .nil
      simpa using this
    | case2 => cases h
    | case3 a b cs x y bs' hx hb ha ih =>
      rw [hexDecode] at h
      obtain ⟨l1, l2, rfl, h1, -, hf2⟩ := List.filter_eq_cons_iff.1 hf
      obtain ⟨ws, l3, rfl, h2, -, hf3⟩ := List.filter_eq_cons_iff.1 hf2
      rw [ha, hb, hx] at h
      cases h
      exact Hex.spaces (fun c hc => not_space (h1 c hc)) (.byte ((hexVal_iff _ _).1 ha)
        (fun c hc => not_space (h2 c hc)) ((hexVal_iff _ _).1 hb) (ih _ _ hf3 hx))
    | case4 a b cs hno ih =>
      rw [hexDecode] at h
      split at h
      · rename_i x y bs' ha hb hx
        exact absurd hx (hno x y bs' ha hb)
      · cases h
  · intro h
    unfold removeWhitespace
    induction h with
    | nil => rfl
    | space hs _ ih =>
      rw [List.filter_cons, if_neg (by rw [(isWhitespace_iff _).2 hs]; simp)]
      exact ih
    | @byte a b x y ws cs bs ha hw hb _ ih =>
      have hws : ws.filter (fun c => !isWhitespace c) = [] := by
        rw [List.filter_eq_nil_iff]
        intro c hc
        rw [(isWhitespace_iff _).2 (hw c hc)]
        simp
      rw [List.filter_cons, if_pos (by rw [digit_space ha]; rfl), List.filter_append, hws,
        List.nil_append, List.filter_cons, if_pos (by rw [digit_space hb]; rfl), hexDecode,
        (hexVal_iff _ _).2 ha, (hexVal_iff _ _).2 hb, ih]

end Cli

/-- **C38** A text that stands for a byte string is treated as that byte string. -/
theorem C38_accepts (cfg : Cfg) (t : Option Cli.ParseType) (fid : Option U8) (text : String)
    (bytes : List U8) (h : Spec.Hex text.toList bytes) :
    Cli.main cfg t fid text = Cli.run cfg t fid bytes := by
  unfold Cli.main
  rw [(Cli.decode_iff _ _).2 h]

/-- **C38** Every other text is refused, whatever was asked for. -/
theorem C38_refuses (cfg : Cfg) (t : Option Cli.ParseType) (fid : Option U8) (text : String)
    (h : ¬ ∃ bytes, Spec.Hex text.toList bytes) : Cli.main cfg t fid text = .crash := by
  unfold Cli.main
  split
  · rfl
  · rename_i bytes hd
    exact absurd ⟨bytes, (Cli.decode_iff _ _).1 hd⟩ h

theorem Spec.Hex.chars {cs : List Char} {bs : List U8} (h : Spec.Hex cs bs) :
    ∀ c ∈ cs, Spec.space c ∨ ∃ v, Spec.digit c v := by
  induction h with
  | nil => simp
  | space hs _ ih =>
    intro c hc
    rcases List.mem_cons.1 hc with rfl | hc
    · exact .inl hs
    · exact ih c hc
  | byte ha hw hb _ ih =>
    intro c hc
    rcases List.mem_cons.1 hc with rfl | hc
    · exact .inr ⟨_, ha⟩
    · rcases List.mem_append.1 hc with hc | hc
      · exact .inl (hw c hc)
      · rcases List.mem_cons.1 hc with rfl | hc
        · exact .inr ⟨_, hb⟩
        · exact ih c hc

/-- **C38** In particular: texts holding a character that is neither a digit nor white space. -/
theorem C38_refuses_characters (cfg : Cfg) (t : Option Cli.ParseType) (fid : Option U8) (text : String)
    (c : Char) (hc : c ∈ text.toList) (hs : ¬ Spec.space c) (hd : ∀ v, ¬ Spec.digit c v) :
    Cli.main cfg t fid text = .crash := by
  apply C38_refuses
  rintro ⟨bytes, h⟩
  rcases h.chars c hc with h | ⟨v, h⟩
  · exact hs h
  · exact hd v h

/-- **C38** In particular: texts with an odd number of characters besides white space. -/
theorem C38_refuses_odd (cfg : Cfg) (t : Option Cli.ParseType) (fid : Option U8) (text : String)
    (h : (text.toList.filter fun c => ¬ Spec.space c).length % 2 = 1) :
    Cli.main cfg t fid text = .crash := by
  apply C38_refuses
  rintro ⟨bytes, hx⟩
  generalize text.toList = cs at h hx
  have hd : ∀ {c v}, Spec.digit c v → ¬ Spec.space c := by
    intro c v hc hs
    have := (Cli.isWhitespace_iff _).2 hs
    rw [Cli.digit_space hc] at this
    cases this
  induction hx with
  | nil => cases h
  | space hs _ ih =>
    rw [List.filter_cons, if_neg (by simpa using hs)] at h
    exact ih h
  | @byte a b x y ws cs bs ha hw hb _ ih =>
    have hws : ws.filter (fun c => ¬ Spec.space c) = [] := by
      rw [List.filter_eq_nil_iff]
      intro c hc
      simpa using hw c hc
    rw [List.filter_cons, if_pos (by simpa using hd ha), List.filter_append, hws,
      List.nil_append, List.filter_cons, if_pos (by simpa using hd hb)] at h
    exact ih (by simp at h ⊢; omega)

/-- The text of a byte string, with lower- or upper-case digits. -/
def Spec.hexText (upper : Bool) : List U8 → List Char
  | [] => []
  | b :: bs =>
    let digits := (if upper then "0123456789ABCDEF" else "0123456789abcdef").toList
    digits[b.toNat / 16]?.getD ' ' :: digits[b.toNat % 16]?.getD ' ' :: hexText upper bs

theorem Spec.hexText_digit (upper : Bool) (v : Nat) (hv : v < 16) :
    Spec.digit ((if upper then "0123456789ABCDEF" else "0123456789abcdef").toList[v]?.getD ' ') v := by
  have : v = 0 ∨ v = 1 ∨ v = 2 ∨ v = 3 ∨ v = 4 ∨ v = 5 ∨ v = 6 ∨ v = 7 ∨ v = 8 ∨ v = 9 ∨ v = 10 ∨
      v = 11 ∨ v = 12 ∨ v = 13 ∨ v = 14 ∨ v = 15 := by omega
  unfold Spec.digit
  rcases this with rfl | rfl | rfl | rfl | rfl | rfl | rfl | rfl | rfl | rfl | rfl | rfl | rfl | rfl |
    rfl | rfl <;> cases upper <;> simp

/-- **C38** Every byte string has such a text, in either case. -/
theorem C38_every_byte_string (upper : Bool) (bytes : List U8) :
    Spec.Hex (Spec.hexText upper bytes) bytes := by
  induction bytes with
  | nil => exact .nil
  | cons b bs ih =>
    have h := Spec.Hex.byte (ws := []) (Spec.hexText_digit upper (b.toNat / 16) (by have := b.isLt; omega))
      (by simp) (Spec.hexText_digit upper (b.toNat % 16) (by omega)) ih
    have hb : BitVec.ofNat 8 (16 * (b.toNat / 16) + b.toNat % 16) = b := by
      rw [Nat.div_add_mod]
      simp
    rw [hb] at h
    exact h

example : Spec.Hex " dE\tad bE e\nF".toList [0xDE, 0xAD, 0xBE, 0xEF] :=
  (Cli.decode_iff _ _).1 (by decide +kernel)
example : Cli.main Sample.spec none none "34 0\t7" = .printed (.command ⟨[.requestTag ⟨false, ⟨52⟩, 7⟩]⟩) := by
  decide +kernel
example : Cli.main Sample.spec none none "34 0" = .crash := by decide +kernel
example : ("34 0".toList.filter fun c => ¬ Spec.space c).length % 2 = 1 := by decide +kernel
example : ¬ Spec.space 'g' ∧ ∀ v, ¬ Spec.digit 'g' v :=
  ⟨fun h => by have := (Cli.isWhitespace_iff 'g').2 h; revert this; decide,
   fun v h => by have := (Cli.hexVal_iff 'g' v).2 h; revert this; simp [Cli.hexVal]⟩

#print axioms C38_accepts
#print axioms C38_refuses
#print axioms C38_refuses_characters
#print axioms C38_refuses_odd
#print axioms C38_every_byte_string

/-! ## C39: what is tried -/

/-- Readers on the concrete reader that keep its invariant and never panic. -/
structure R.Tame {α : Type} (m : R α) : Prop where
  ok : ∀ {r r' : Rd} {a : α}, r.OK → m r = .ok (a, r') → r'.OK
  err : ∀ {r : Rd} {f : Fault}, r.OK → m r = .error (.fault f) → f = .parse ∨ f = .invalidParam

theorem R.Tame.run {α : Type} {p : P α} (h : p.Safe) : R.Tame p.run where
  ok := fun hr he => by
    obtain ⟨-, n, st, -⟩ := P.run_ok' p hr he
    exact st.ok
  err := fun hr he => .inl (h _ _ (P.run_err' p hr he))

theorem R.Tame.bind {α β : Type} {m : R α} {g : α → R β} (h1 : m.Tame) (h2 : ∀ a, (g a).Tame) :
    R.Tame (R.bind m g) where
  ok := fun hr he => by
    unfold R.bind at he
    split at he
    · rename_i a r1 hm
      exact (h2 a).ok (h1.ok hr hm) he
    · cases he
  err := fun hr he => by
    unfold R.bind at he
    split at he
    · rename_i a r1 hm
      exact (h2 a).err (h1.ok hr hm) he
    · rename_i e hm
      cases he
      exact h1.err hr hm

theorem R.Tame.pure {α : Type} (a : α) : R.Tame (R.pure a) where
  ok := fun hr he => by cases he; exact hr
  err := fun _ he => by cases he

theorem Command.tame (cfg : Cfg) (L : U32) : R.Tame (Command.read cfg L) where
  ok := fun hr he => by
    obtain ⟨ps, -, hok, -⟩ := Command.loop_ok hr (Command.read_inv he)
    exact hok
  err := fun hr he => Command.read_fault hr he

theorem Trans.Header.safe : Trans.Header.read.Safe := by
  unfold Trans.Header.read Trans.Control.read Trans.AckTemplate.read
  refine P.Safe.bind (by safe) fun _ => ?_
  refine P.Safe.bind P.Safe.u8 fun _ => P.Safe.bind P.Safe.u8 fun _ => ?_
  refine P.Safe.bind (.cond .u8) fun _ => P.Safe.bind (.cond VarInt.safe) fun _ =>
    P.Safe.bind (.cond VarInt.safe) fun _ => P.Safe.bind (.cond VarInt.safe) fun _ => ?_
  safe

theorem Net.Header.safe (cfg : Cfg) : (Net.Header.read cfg).Safe := by
  unfold Net.Header.read Net.Control.read Net.HoppingControl.read
  refine P.Safe.bind ?_ fun _ => P.Safe.bind (.cond ?_) fun _ => P.Safe.bind AccessClass.safe fun _ =>
    P.Safe.bind (Address.safe _) fun _ => P.Safe.pure
  · exact P.Safe.bind .flag fun _ => .bind .flag fun _ => .bind AddressType.safe fun _ =>
      .bind .pad fun _ => .bind (NlsMethod.safe cfg) fun _ => .pure
  · exact P.Safe.bind .pad fun _ => .bind .flag fun _ => .bind AddressType.safe fun _ =>
      .bind .pad fun _ => .pure

theorem ForegroundHeader.safe : ForegroundHeader.read.Safe := by
  unfold ForegroundHeader.read ForegroundFrameControl.read
  exact P.Safe.bind Length.safe fun _ => .bind .u8 fun _ =>
    .bind (.bind AddressType.safe fun _ => .bind .uint fun _ => .pure) fun _ =>
    .bind (Address.safe _) fun _ => .pure

theorem BackgroundFrame.safe (cfg : Cfg) : (BackgroundFrame.read cfg).Safe := by
  unfold BackgroundFrame.read BackgroundFrameControl.read
  exact P.Safe.bind .u8 fun _ => .bind (.bind AddressType.safe fun _ => .bind .uint fun _ => .pure) fun _ =>
    .bind .uintHost fun _ => .bind .uintHost fun _ => .pure

theorem ForegroundFrame.tame (cfg : Cfg) : R.Tame (ForegroundFrame.read cfg) := by
  unfold ForegroundFrame.read Net.Frame.read Trans.Frame.read
  exact R.Tame.bind (.run ForegroundHeader.safe) fun _ =>
    R.Tame.bind (R.Tame.bind (.run (Net.Header.safe cfg)) fun _ =>
      R.Tame.bind (R.Tame.bind (.run Trans.Header.safe) fun _ =>
        R.Tame.bind (Command.tame cfg _) fun _ => .pure _) fun _ => .pure _) fun _ =>
    R.Tame.bind (.run .uintHost) fun _ => .pure _

theorem derivedTryFrom_total {α : Type} {m : R α} (h : m.Tame) (data : List U8) :
    Spec.Total (derivedTryFrom m data) := by
  unfold derivedTryFrom
  cases hm : m (Rd.new data) with
  | error e =>
    refine .inr ⟨e, rfl, ?_⟩
    cases e with
    | incomplete => exact .inl rfl
    | fault f => rcases h.err (Rd.new_con data).toOK hm with rfl | rfl <;> simp [Spec.Refusal]
  | ok p =>
    obtain ⟨a, r⟩ := p
    dsimp only
    split
    · exact .inr ⟨_, rfl, .inr (.inl rfl)⟩
    · exact .inl ⟨_, rfl⟩

namespace Cli

theorem Refusal.isPanic {e : Err} (h : Spec.Refusal e) : Cli.isPanic e = false := by
  rcases h with rfl | rfl | rfl <;> rfl

theorem orElse_error {a b : Except Err Printed} {e : Err} (h : a = .error e) (he : Spec.Refusal e) :
    orElse a b = b := by
  subst h
  unfold orElse
  simp [Refusal.isPanic he]

theorem refusal_of {α : Type} {x : Except Err α} (h : Spec.Total x) {e : Err} (hx : x = .error e) :
    Spec.Refusal e := by
  rcases h with ⟨a, ha⟩ | ⟨e', he, hr⟩
  · rw [hx] at ha; cases ha
  · rw [hx] at he; cases he; exact hr

theorem parseFile_short {cfg : Cfg} {input : List U8} {fid : FileId}
    (hmin : ∀ f s', (File.read cfg fid 0).eval (bytesBits input) ≠ .ok (f, s'))
    (hs : (File.read cfg fid 0).Safe) :
    ∃ e, parseFile cfg input fid = .error e ∧ Spec.Refusal e := by
  match he : (File.read cfg fid 0).eval (bytesBits input) with
  | .ok (f, s') => exact absurd he (hmin f s')
  | .error e =>
    have hr := P.run_err _ (Rd.new_con input).toOK (by rw [Rd.new_rem]; exact he)
    refine ⟨e, ?_, ?_⟩
    · unfold parseFile fileFromBytes Dash7.fromBytes
      dsimp only
      rw [startAt_zero, hr]
    · cases e with
      | incomplete => exact .inl rfl
      | fault f => rw [hs _ _ he]; simp [Spec.Refusal]

theorem parseFile_ok {cfg : Cfg} {input q x : List U8} {fid : FileId} {f : File}
    (hd : input = x ++ q)
    (he : (File.read cfg fid 0).eval (bytesBits input) = .ok (f, bytesBits q)) :
    parseFile cfg input fid = .ok (.file (q, 0) f) := by
  obtain ⟨r, hr, hb, -⟩ := P.run_new he
  rw [bytesBits_length, hd, List.length_append] at hb
  unfold parseFile fileFromBytes Dash7.fromBytes
  dsimp only
  rw [startAt_zero, hr]
  dsimp only
  rw [show r.bitsRead = 8 * x.length by omega, padRest_whole, hd]
  simp

theorem uid_eval {cfg : Cfg} {input : List U8} (h : 8 ≤ input.length) :
    (File.read cfg .uId 0).eval (bytesBits input) =
      .ok (.uId (.uId (BitVec.ofNat 64 (Spec.bigEndianValue (input.take 8)))), bytesBits (input.drop 8)) := by
  have hb : (P.uint 64 64).eval (bytesBits input) =
      .ok (BitVec.ofNat 64 (Spec.bigEndianValue (input.take 8)), bytesBits (input.drop 8)) := by
    unfold P.uint
    rw [if_neg (by omega), P.eval_bits, if_pos (by rw [bytesBits_length]; omega), ← bitsNat_bytesBits,
      bytesBits_take, bytesBits_drop]
    rfl
  show ((Address.read .uId).bind fun a => P.pure (File.uId a)).eval _ = _
  rw [P.eval_bind]
  rw [show Address.read .uId = (P.uint 64 64).bind fun a => P.pure (Address.uId a) from rfl, P.eval_bind, hb]
  rfl

theorem short {α : Type} {p : P α} {Q : α → Nat → Prop} (hp : Post p Q)
    (hQ : ∀ a n, Q a n → 64 ≤ n) {input : List U8} (h : ¬ 8 ≤ input.length) (a : α) (s' : List Bool) :
    p.eval (bytesBits input) ≠ .ok (a, s') := by
  intro he
  obtain ⟨c, hc, -⟩ := P.eval_ok p he
  rw [hc] at he
  have h1 := hQ _ _ (hp c s' a he)
  have h2 := congrArg List.length hc
  rw [bytesBits_length, List.length_append] at h2
  omega

theorem short_bind {α β : Type} {p : P α} {g : α → P β} {Q : α → Nat → Prop} (hp : Post p Q)
    (hQ : ∀ a n, Q a n → 64 ≤ n) {input : List U8} (h : ¬ 8 ≤ input.length) (b : β) (s' : List Bool) :
    (p.bind g).eval (bytesBits input) ≠ .ok (b, s') := by
  intro he
  rw [P.eval_bind] at he
  split at he
  · rename_i a s1 ha
    exact short hp hQ h a s1 ha
  · cases he

/-- The result of trying the system files. -/
theorem parseAnyFile_eq (cfg : Cfg) (input : List U8) :
    parseAnyFile cfg input = .ok (
      if 8 ≤ input.length then .file (input.drop 8, 0)
        (.uId (.uId (BitVec.ofNat 64 (Spec.bigEndianValue (input.take 8)))))
      else .file (input, 0) (.other [])) := by
  unfold parseAnyFile
  rw [show List.range 0x2F = 0 :: 1 :: 2 :: 3 :: (List.range 43).map (· + 4) by decide]
  by_cases h : 8 ≤ input.length
  · rw [if_pos h, parseAnyFileLoop]
    rw [show FileId.ofId (BitVec.ofNat 8 0) = .uId by decide,
      parseFile_ok (List.take_append_drop 8 input).symm (uid_eval h)]
  · rw [if_neg h, parseAnyFileLoop]
    obtain ⟨e0, h0, r0⟩ := parseFile_short (cfg := cfg) (input := input) (fid := .uId)
      (short_bind (Address.post .uId) (fun a n hn => by rw [hn.2]; decide) h) (File.safe _ _ _)
    obtain ⟨e1, h1, r1⟩ := parseFile_short (cfg := cfg) (input := input) (fid := .factorySettings)
      (short_bind FactorySettings.post (fun a n hn => by omega) h) (File.safe _ _ _)
    obtain ⟨e2, h2, r2⟩ := parseFile_short (cfg := cfg) (input := input) (fid := .firmwareVersion)
      (short_bind FirmwareVersion.post (fun a n hn => by omega) h) (File.safe _ _ _)
    have h3 : parseFile cfg input .deviceCapacity = .ok (.file (input, 0) (.other [])) :=
      parseFile_ok (x := []) rfl rfl
    rw [show FileId.ofId (BitVec.ofNat 8 0) = .uId by decide, h0]
    simp only [Refusal.isPanic r0, Bool.false_eq_true, if_false]
    rw [parseAnyFileLoop, show FileId.ofId (BitVec.ofNat 8 1) = .factorySettings by decide, h1]
    simp only [Refusal.isPanic r1, Bool.false_eq_true, if_false]
    rw [parseAnyFileLoop, show FileId.ofId (BitVec.ofNat 8 2) = .firmwareVersion by decide, h2]
    simp only [Refusal.isPanic r2, Bool.false_eq_true, if_false]
    rw [parseAnyFileLoop, show FileId.ofId (BitVec.ofNat 8 3) = .deviceCapacity by decide, h3]

end Cli

/-- **C39** A foreground frame wins over everything else. -/
theorem C39_foreground (cfg : Cfg) (fid : Option U8) (input : List U8) (f : ForegroundFrame)
    (h : ForegroundFrame.tryFrom cfg input = .ok f) :
    Cli.run cfg none fid input = .printed (.foreground f) := by
  simp only [Cli.run, Cli.parseAny, Cli.parseForegroundFrame, h, Cli.orElse, Cli.expect]

/-- **C39** Next come background frames. -/
theorem C39_background (cfg : Cfg) (fid : Option U8) (input : List U8) (f : BackgroundFrame)
    (h1 : ∀ f, ForegroundFrame.tryFrom cfg input ≠ .ok f) (h : BackgroundFrame.tryFrom cfg input = .ok f) :
    Cli.run cfg none fid input = .printed (.background f) := by
  match hx : ForegroundFrame.tryFrom cfg input with
  | .ok f => exact absurd hx (h1 f)
  | .error e =>
    have := Cli.refusal_of (derivedTryFrom_total (ForegroundFrame.tame cfg) input) hx
    simp only [Cli.run, Cli.parseAny]
    rw [Cli.orElse_error (e := e) (by simp only [Cli.parseForegroundFrame, hx]) this]
    simp only [Cli.parseBackgroundFrame, h, Cli.orElse, Cli.expect]

/-- **C39** Next come ALP commands. -/
theorem C39_command (cfg : Cfg) (fid : Option U8) (input : List U8) (c : Command)
    (h1 : ∀ f, ForegroundFrame.tryFrom cfg input ≠ .ok f)
    (h2 : ∀ f, BackgroundFrame.tryFrom cfg input ≠ .ok f) (h : Command.tryFrom cfg input = .ok c) :
    Cli.run cfg none fid input = .printed (.command c) := by
  match hx : ForegroundFrame.tryFrom cfg input, hy : BackgroundFrame.tryFrom cfg input with
  | .ok f, _ => exact absurd hx (h1 f)
  | _, .ok f => exact absurd hy (h2 f)
  | .error e, .error e' =>
    have r1 := Cli.refusal_of (derivedTryFrom_total (ForegroundFrame.tame cfg) input) hx
    have r2 := Cli.refusal_of (derivedTryFrom_total (.run (BackgroundFrame.safe cfg)) input) hy
    simp only [Cli.run, Cli.parseAny]
    rw [Cli.orElse_error (e := e) (by simp only [Cli.parseForegroundFrame, hx]) r1,
      Cli.orElse_error (e := e') (by simp only [Cli.parseBackgroundFrame, hy]) r2]
    simp only [Cli.parseAlpCommand, h, Cli.orElse, Cli.expect]

/-- **C39** What happens if none of the three fits. The system files are tried with a declared length of
0: whatever has eight bytes is a UID file, and everything else is an empty file. -/
theorem C39_files_partial (cfg : Cfg) (fid : Option U8) (input : List U8)
    (h1 : ∀ f, ForegroundFrame.tryFrom cfg input ≠ .ok f)
    (h2 : ∀ f, BackgroundFrame.tryFrom cfg input ≠ .ok f)
    (h3 : ∀ c, Command.tryFrom cfg input ≠ .ok c) :
    Cli.run cfg none fid input = .printed (
      if 8 ≤ input.length then .file (input.drop 8, 0)
        (.uId (.uId (BitVec.ofNat 64 (Spec.bigEndianValue (input.take 8)))))
      else .file (input, 0) (.other [])) := by
  match hx : ForegroundFrame.tryFrom cfg input, hy : BackgroundFrame.tryFrom cfg input,
      hz : Command.tryFrom cfg input with
  | .ok f, _, _ => exact absurd hx (h1 f)
  | _, .ok f, _ => exact absurd hy (h2 f)
  | _, _, .ok f => exact absurd hz (h3 f)
  | .error e, .error e', .error e'' =>
    have r1 := Cli.refusal_of (derivedTryFrom_total (ForegroundFrame.tame cfg) input) hx
    have r2 := Cli.refusal_of (derivedTryFrom_total (.run (BackgroundFrame.safe cfg)) input) hy
    have r3 := Cli.refusal_of (C04_command_total cfg input) hz
    simp only [Cli.run, Cli.parseAny]
    rw [Cli.orElse_error (e := e) (by simp only [Cli.parseForegroundFrame, hx]) r1,
      Cli.orElse_error (e := e') (by simp only [Cli.parseBackgroundFrame, hy]) r2,
      Cli.orElse_error (e := e'') (by simp only [Cli.parseAlpCommand, hz]) r3,
      Cli.orElse_error (a := Cli.parseSerial input) (e := .fault .parse) rfl (by simp [Spec.Refusal]), Cli.parseAnyFile_eq]
    rfl

/-- **C39** fails: no input whatsoever is reported as unparseable. -/
theorem C39_never_fails_violates (cfg : Cfg) (fid : Option U8) (input : List U8) :
    ∃ p, Cli.run cfg none fid input = .printed p := by
  by_cases h1 : ∃ f, ForegroundFrame.tryFrom cfg input = .ok f
  · obtain ⟨f, h⟩ := h1
    exact ⟨_, C39_foreground cfg fid input f h⟩
  · by_cases h2 : ∃ f, BackgroundFrame.tryFrom cfg input = .ok f
    · obtain ⟨f, h⟩ := h2
      exact ⟨_, C39_background cfg fid input f (fun f hf => h1 ⟨f, hf⟩) h⟩
    · by_cases h3 : ∃ c, Command.tryFrom cfg input = .ok c
      · obtain ⟨c, h⟩ := h3
        exact ⟨_, C39_command cfg fid input c (fun f hf => h1 ⟨f, hf⟩) (fun f hf => h2 ⟨f, hf⟩) h⟩
      · exact ⟨_, C39_files_partial cfg fid input (fun f hf => h1 ⟨f, hf⟩) (fun f hf => h2 ⟨f, hf⟩)
          (fun c hc => h3 ⟨c, hc⟩)⟩

/-- **C39** fails: asked for a system file of unknown id, the tool takes every input for a UID or for an
empty file; a link configuration, say, is never recognised. -/
theorem C39_system_files_violates (cfg : Cfg) (input : List U8) :
    Cli.run cfg (some .systemfile) none input = .printed (
      if 8 ≤ input.length then .file (input.drop 8, 0)
        (.uId (.uId (BitVec.ofNat 64 (Spec.bigEndianValue (input.take 8)))))
      else .file (input, 0) (.other [])) := by
  simp only [Cli.run, Cli.parseAnyFile_eq, Cli.expect]

/-- The hypotheses of the last case are met by three bytes of junk. -/
example (cfg : Cfg) : Cli.run cfg none none [0xFF, 0xFE, 0xFD]
    = .printed (.file ([0xFF, 0xFE, 0xFD], 0) (.other [])) := by
  rcases cfg with ⟨v, a, b, c, d⟩
  cases v <;> cases a <;> cases b <;> cases c <;> cases d <;> decide +kernel
example (cfg : Cfg) : Cli.run cfg none none [0x41, 0x07, 0, 0, 0, 0, 0, 1, 2, 3]
    = .printed (.file ([2, 3], 0) (.uId (.uId 0x4107000000000001))) := by
  rcases cfg with ⟨v, a, b, c, d⟩
  cases v <;> cases a <;> cases b <;> cases c <;> cases d <;> decide +kernel
/-- A background frame. -/
example (cfg : Cfg) : (match Cli.run cfg none none [1, 2, 3, 4, 5, 6] with
    | .printed (.background _) => true | _ => false) = true := by
  rcases cfg with ⟨v, a, b, c, d⟩
  cases v <;> cases a <;> cases b <;> cases c <;> cases d <;> decide +kernel
/-- A foreground frame. -/
example : (match (Sample.foreground 23 ⟨[]⟩).toBytes Sample.spec with
    | .ok bytes => decide (Cli.run Sample.spec none none bytes = .printed (.foreground (Sample.foreground 23 ⟨[]⟩)))
    | _ => false) = true := by decide +kernel

#print axioms C39_foreground
#print axioms C39_background
#print axioms C39_command
#print axioms C39_files_partial
#print axioms C39_never_fails_violates
#print axioms C39_system_files_violates

/-! ## C53: parsing frames never panics -/

/-- **C53** `try_from` of every kind of frame returns a frame or a refusal, on every byte string. -/
theorem C53_partial (cfg : Cfg) (data : List U8) :
    Spec.Total (ForegroundFrame.tryFrom cfg data) ∧ Spec.Total (BackgroundFrame.tryFrom cfg data) ∧
    Spec.Total (Net.Frame.tryFrom cfg data) ∧ Spec.Total (Trans.Frame.tryFrom cfg data) := by
  have ht : R.Tame (Trans.Frame.read cfg 0) := by
    unfold Trans.Frame.read
    exact R.Tame.bind (.run Trans.Header.safe) fun _ => R.Tame.bind (Command.tame cfg _) fun _ => .pure _
  refine ⟨derivedTryFrom_total (ForegroundFrame.tame cfg) data,
    derivedTryFrom_total (.run (BackgroundFrame.safe cfg)) data, derivedTryFrom_total ?_ data,
    derivedTryFrom_total ht data⟩
  unfold Net.Frame.read
  exact R.Tame.bind (.run (Net.Header.safe cfg)) fun _ => R.Tame.bind ht fun _ => .pure _

/-- **C53** fails for `ForegroundFrame::from_bytes`: it panics on an ordinary frame, in every build of
the other two features. -/
theorem C53_violates (cfg : Cfg) (hv : cfg.variant ≠ .wizzilab) :
    (match (Sample.foreground 29 ⟨[Sample.readData]⟩).toBytes cfg with
      | .ok bytes => decide (ForegroundFrame.fromBytes cfg (bytes, 0) = .error (.fault .panic))
      | _ => false) = true := by
  rcases cfg with ⟨v, a, b, c, d⟩
  cases v
  case wizzilab => exact absurd rfl hv
  all_goals cases a <;> cases b <;> cases c <;> cases d <;> decide +kernel

#print axioms C53_partial
#print axioms C53_violates

end Dash7
