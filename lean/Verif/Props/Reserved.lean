import Verif.Lemmas.Reserved
import Verif.Model.Frame
import Verif.Props.Layout
import Verif.Props.Decoder

/-!
# C40: reserved bits
-/

namespace Dash7

theorem Ign.tryFrom {α : Type} {p : P α} {k m n : Nat} {res : List Nat} (h : Ign p (8 * k + m) n)
    (hmn : m + n ≤ 8) {pre t : List U8} {b b' : U8} (hk : pre.length = k)
    (hres : ∀ i, i < 8 → (i < 8 - m - n ∨ 8 - m ≤ i) → i ∉ res) (hb : Spec.sameExcept res b b') :
    derivedTryFrom p.run (pre ++ b :: t) = derivedTryFrom p.run (pre ++ b' :: t) :=
  derivedTryFrom_congr (by simp) (h.byte hmn hk fun i hi h' => hb i hi (hres i hi h'))

/-! ## Decoding -/

/-- **C40** channel header: bit 7. -/
theorem C40_channel_header (b b' : U8) (t : List U8) (h : Spec.sameExcept [7] b b') :
    derivedTryFrom ChannelHeader.read.run (b :: t) = derivedTryFrom ChannelHeader.read.run (b' :: t) :=
  Ign.tryFrom (k := 0) (m := 0) (n := 1) (pre := []) (by unfold ChannelHeader.read; ign) (by decide) rfl
    (by decide) h


/-- **C40** file header: bits 3 and 2 of the second byte. -/
theorem C40_file_header (a b b' : U8) (t : List U8) (h : Spec.sameExcept [3, 2] b b') :
    derivedTryFrom Data.FileHeader.read.run (a :: b :: t) = derivedTryFrom Data.FileHeader.read.run (a :: b' :: t) :=
  Ign.tryFrom (k := 1) (m := 4) (n := 2) (pre := [a])
    (by unfold Data.FileHeader.read Data.FilePermissions.read Data.UserPermissions.reader
          Data.FileProperties.read Data.ActionCondition.reader
        ign) (by decide) rfl (by decide) h

/-- **C40** DLL configuration: the second and third byte. -/
theorem C40_dll_config (a b b' c c' : U8) (t : List U8) :
    derivedTryFrom DllConfig.read.run (a :: b :: c :: t) = derivedTryFrom DllConfig.read.run (a :: b' :: c' :: t) :=
  (Ign.tryFrom (k := 1) (m := 0) (n := 8) (pre := [a]) (res := [0, 1, 2, 3, 4, 5, 6, 7])
    (by unfold DllConfig.read; ign) (by decide) rfl (by decide) (fun i hi h => absurd (by
      rcases i with _ | _ | _ | _ | _ | _ | _ | _ | i <;> simp at h ⊢; omega) h)).trans
  (Ign.tryFrom (k := 2) (m := 0) (n := 8) (pre := [a, b']) (res := [0, 1, 2, 3, 4, 5, 6, 7])
    (by unfold DllConfig.read; ign) (by decide) rfl (by decide) (fun i hi h => absurd (by
      rcases i with _ | _ | _ | _ | _ | _ | _ | _ | i <;> simp at h ⊢; omega) h))

/-- **C40** addressee outside the wizzilab build: bits 7 and 6. -/
theorem C40_addressee (cfg : Cfg) (hc : cfg.variant ≠ .wizzilab) (b b' : U8) (t : List U8)
    (h : Spec.sameExcept [7, 6] b b') :
    derivedTryFrom (Addressee.read cfg).run (b :: t) = derivedTryFrom (Addressee.read cfg).run (b' :: t) :=
  Ign.tryFrom (k := 0) (m := 0) (n := 2) (pre := [])
    (by
      unfold Addressee.read
      refine Ign.bind ?_
      split
      · contradiction
      · exact Ign.skip.cast rfl rfl) (by decide) rfl (by decide) h

/-- **C40** interface status: bits 3 to 0 of the seventh byte. -/
theorem C40_interface_status (cfg : Cfg) (pre : List U8) (hp : pre.length = 6) (b b' : U8) (t : List U8)
    (h : Spec.sameExcept [3, 2, 1, 0] b b') :
    derivedTryFrom (Dash7InterfaceStatus.read cfg).run (pre ++ b :: t)
      = derivedTryFrom (Dash7InterfaceStatus.read cfg).run (pre ++ b' :: t) :=
  Ign.tryFrom (k := 6) (m := 4) (n := 4)
    (by unfold Dash7InterfaceStatus.read Channel.read ChannelHeader.read; ign) (by decide) hp (by decide) h

/-- **C40** interface TX status (wizzilab): bytes 6 to 8. -/
theorem C40_interface_tx_status (cfg : Cfg) (pre : List U8) (hp : pre.length = 5) (a b c a' b' c' : U8)
    (t : List U8) :
    derivedTryFrom (Dash7InterfaceTxStatus.read cfg).run (pre ++ a :: b :: c :: t)
      = derivedTryFrom (Dash7InterfaceTxStatus.read cfg).run (pre ++ a' :: b' :: c' :: t) := by
  have key : Ign (Dash7InterfaceTxStatus.read cfg) 40 24 := by
    unfold Dash7InterfaceTxStatus.read Channel.read ChannelHeader.read InterfaceFinalStatusCode.read
    ign
    split
    · exact Ign.skip.cast rfl rfl
    · exact Ign.fail
  refine derivedTryFrom_congr (by simp) ?_
  have e : ∀ a b c : U8, bytesBits (pre ++ a :: b :: c :: t)
      = bytesBits pre ++ (bytesBits [a, b, c] ++ bytesBits t) := by
    intro a b c
    rw [← bytesBits_append, ← bytesBits_append]
    rfl
  rw [e, e]
  exact key _ _ _ _ (by rw [bytesBits_length]; omega) (by rw [bytesBits_length]; rfl) (by rw [bytesBits_length]; rfl)

/-- **C40** LoRaWAN configuration: bits 7 to 3 and 0. -/
theorem C40_lorawan (b b' : U8) (t : List U8) (h : Spec.sameExcept [7, 6, 5, 4, 3, 0] b b') :
    derivedTryFrom LoRaWANInterfaceConfiguration.read.run (b :: t)
      = derivedTryFrom LoRaWANInterfaceConfiguration.read.run (b' :: t) := by
  let c : U8 := (b &&& 7) ||| (b' &&& 0xF8)
  have h1 : Spec.sameExcept [7, 6, 5, 4, 3] b c := by
    intro i hi hn
    rcases i with _ | _ | _ | _ | _ | _ | _ | _ | i <;> simp [c] at hn ⊢
  have h2 : Spec.sameExcept [0] c b' := by
    intro i hi hn
    have := h i hi
    rcases i with _ | _ | _ | _ | _ | _ | _ | _ | i <;> simp [c] at hn this ⊢
    · exact this
    · exact this
  exact (Ign.tryFrom (k := 0) (m := 0) (n := 5) (pre := []) (by unfold LoRaWANInterfaceConfiguration.read; ign)
    (by decide) rfl (by decide) h1).trans
    (Ign.tryFrom (k := 0) (m := 7) (n := 1) (pre := []) (by unfold LoRaWANInterfaceConfiguration.read; ign)
    (by decide) rfl (by decide) h2)

/-- **C40** network hopping control: bit 7 and bits 3 to 0. -/
theorem C40_hopping_control (b b' : U8) (t : List U8) (h : Spec.sameExcept [7, 3, 2, 1, 0] b b') :
    derivedTryFrom Net.HoppingControl.read.run (b :: t)
      = derivedTryFrom Net.HoppingControl.read.run (b' :: t) := by
  let c : U8 := (b &&& 0x7F) ||| (b' &&& 0x80)
  have h1 : Spec.sameExcept [7] b c := by
    intro i hi hn
    rcases i with _ | _ | _ | _ | _ | _ | _ | _ | i <;> simp [c] at hn ⊢
  have h2 : Spec.sameExcept [3, 2, 1, 0] c b' := by
    intro i hi hn
    have := h i hi
    rcases i with _ | _ | _ | _ | _ | _ | _ | _ | i <;> simp [c] at hn this ⊢
    · exact this
    · exact this
    · exact this
  exact (Ign.tryFrom (k := 0) (m := 0) (n := 1) (pre := []) (by unfold Net.HoppingControl.read; ign)
    (by decide) rfl (by decide) h1).trans
    (Ign.tryFrom (k := 0) (m := 4) (n := 4) (pre := []) (by unfold Net.HoppingControl.read; ign)
    (by decide) rfl (by decide) h2)

/-- **C40** network control: bit 3. -/
theorem C40_network_control (cfg : Cfg) (b b' : U8) (t : List U8) (h : Spec.sameExcept [3] b b') :
    derivedTryFrom (Net.Control.read cfg).run (b :: t) = derivedTryFrom (Net.Control.read cfg).run (b' :: t) :=
  Ign.tryFrom (k := 0) (m := 4) (n := 1) (pre := []) (by unfold Net.Control.read; ign) (by decide) rfl
    (by decide) h

theorem Query.read_eval {l : List Bool} (h : l.length = 3) (r : List Bool) :
    Query.read.eval (l ++ r) = (match (BitVec.ofNat 8 (bitsNat l)).toNat with
      | 0 => do let q ← NonVoid.read; P.pure (Query.nonVoid q)
      | 1 => do let q ← ComparisonWithZero.read; P.pure (.comparisonWithZero q)
      | 2 => do let q ← ComparisonWithValue.read; P.pure (.comparisonWithValue q)
      | 3 => do let q ← ComparisonWithOtherFile.read; P.pure (.comparisonWithOtherFile q)
      | 4 => do let q ← BitmapRangeComparison.read; P.pure (.bitmapRangeComparison q)
      | 7 => do let q ← StringTokenSearch.read; P.pure (.stringTokenSearch q)
      | _ => P.fail .parse : P Query).eval r := by
  show (P.bits 3 _).eval _ = _
  rw [P.eval_bits, if_pos (by simp; omega)]
  rw [← h, List.take_left, List.drop_left]
  rfl

theorem Query.eval_non_void {b b' : U8} {t : List U8} (hq : b.toNat / 32 = 0)
    (h : Spec.sameExcept [4, 3, 2, 1, 0] b b') :
    Query.read.eval (bytesBits (b :: t)) = Query.read.eval (bytesBits (b' :: t)) := by
  have e : ∀ c : U8, bytesBits (c :: t) = [c.getLsbD 7, c.getLsbD 6, c.getLsbD 5]
      ++ ([c.getLsbD 4, c.getLsbD 3, c.getLsbD 2, c.getLsbD 1, c.getLsbD 0] ++ bytesBits t) := fun c => rfl
  have h7 : b.getLsbD 7 = false := by
    rw [BitVec.getLsbD, Nat.testBit_eq_decide_div_mod_eq]; simp; omega
  have h6 : b.getLsbD 6 = false := by
    rw [BitVec.getLsbD, Nat.testBit_eq_decide_div_mod_eq]; simp; omega
  have h5 : b.getLsbD 5 = false := by
    rw [BitVec.getLsbD, Nat.testBit_eq_decide_div_mod_eq]; simp; omega
  rw [e, e, ← h 7 (by decide) (by decide), ← h 6 (by decide) (by decide), ← h 5 (by decide) (by decide),
    h7, h6, h5, Query.read_eval rfl, Query.read_eval rfl]
  have : Ign (do let q ← NonVoid.read; P.pure (Query.nonVoid q)) 0 5 := by
    unfold NonVoid.read; ign
  exact this [] [_, _, _, _, _] [_, _, _, _, _] _ rfl rfl rfl

theorem Query.eval_token_search {b b' : U8} {t : List U8} (hq : b.toNat / 32 = 7) (h : Spec.sameExcept [3] b b') :
    Query.read.eval (bytesBits (b :: t)) = Query.read.eval (bytesBits (b' :: t)) := by
  have e : ∀ c : U8, bytesBits (c :: t) = [c.getLsbD 7, c.getLsbD 6, c.getLsbD 5]
      ++ ([c.getLsbD 4] ++ ([c.getLsbD 3] ++ (c.getLsbD 2 :: c.getLsbD 1 :: c.getLsbD 0 :: bytesBits t))) := fun c => rfl
  have hl := b.isLt
  have h7 : b.getLsbD 7 = true := by
    rw [BitVec.getLsbD, Nat.testBit_eq_decide_div_mod_eq]; simp; omega
  have h6 : b.getLsbD 6 = true := by
    rw [BitVec.getLsbD, Nat.testBit_eq_decide_div_mod_eq]; simp; omega
  have h5 : b.getLsbD 5 = true := by
    rw [BitVec.getLsbD, Nat.testBit_eq_decide_div_mod_eq]; simp; omega
  rw [e, e, ← h 7 (by decide) (by decide), ← h 6 (by decide) (by decide), ← h 5 (by decide) (by decide),
    ← h 4 (by decide) (by decide), ← h 2 (by decide) (by decide), ← h 1 (by decide) (by decide),
    ← h 0 (by decide) (by decide), h7, h6, h5, Query.read_eval rfl, Query.read_eval rfl]
  have : Ign (do let q ← StringTokenSearch.read; P.pure (Query.stringTokenSearch q)) 1 1 := by
    unfold StringTokenSearch.read; ign
  exact this _ _ _ _ rfl rfl rfl

/-- **C40** non-void query: bits 4 to 0. -/
theorem C40_non_void (b b' : U8) (t : List U8) (hq : b.toNat / 32 = 0) (h : Spec.sameExcept [4, 3, 2, 1, 0] b b') :
    derivedTryFrom Query.read.run (b :: t) = derivedTryFrom Query.read.run (b' :: t) :=
  derivedTryFrom_congr rfl (Query.eval_non_void hq h)

/-- **C40** string token search: bit 3. -/
theorem C40_string_token_search (b b' : U8) (t : List U8) (hq : b.toNat / 32 = 7) (h : Spec.sameExcept [3] b b') :
    derivedTryFrom Query.read.run (b :: t) = derivedTryFrom Query.read.run (b' :: t) :=
  derivedTryFrom_congr rfl (Query.eval_token_search hq h)

/-! ### Within actions -/

theorem Action.tryFrom_congr {cfg : Cfg} {d d' : List U8} (hl : d.length = d'.length)
    (h : Action.decode cfg (bytesBits d) = Action.decode cfg (bytesBits d')) :
    Action.tryFrom cfg d = Action.tryFrom cfg d' := by
  match hd : Action.decode cfg (bytesBits d) with
  | .error e => rw [(Action.fromBytes_err hd).2.2, (Action.fromBytes_err (h ▸ hd)).2.2]
  | .ok (a, s) =>
    obtain ⟨r, hr, -, -, -, -, -, hb⟩ := Action.read_aligned_ok (cfg := cfg) (Rd.new_aligned d)
      (by rw [Rd.new_rem]; exact hd)
    obtain ⟨r', hr', -, -, -, -, -, hb'⟩ := Action.read_aligned_ok (cfg := cfg) (Rd.new_aligned d')
      (by rw [Rd.new_rem]; exact h ▸ hd)
    rw [Rd.new_rem, bytesBits_length, show (Rd.new _).bitsRead = 0 from rfl] at hb hb'
    have hbr : r.bitsRead = r'.bitsRead := by omega
    unfold Action.tryFrom Action.fromBytes Dash7.fromBytes
    dsimp only
    rw [startAt_zero, hr, hr']
    dsimp only
    unfold padRest sliceFrom
    dsimp only
    rw [hbr, hl]
    generalize (if r'.bitsRead % 8 = 0 then r'.bitsRead / 8 else (r'.bitsRead - r'.bitsRead % 8) / 8) = j
    by_cases h1 : d'.length * 8 + 0 ≤ r'.bitsRead
    · rw [if_pos h1, if_pos h1]
    · rw [if_neg h1, if_neg h1]
      by_cases h2 : j ≤ d'.length
      · rw [if_pos h2, if_pos h2]
        dsimp only
        have : d.drop j = [] ↔ d'.drop j = [] := by
          rw [List.drop_eq_nil_iff, List.drop_eq_nil_iff, hl]
        by_cases h3 : d'.drop j = []
        · rw [if_neg (by simpa using this.mpr h3), if_neg (by simpa using h3)]
        · rw [if_pos (by simpa [this] using h3), if_pos (by simpa using h3)]
      · rw [if_neg h2, if_neg h2]

theorem Spec.sameExcept.opcode {res : List Nat} {b b' : U8} (h : Spec.sameExcept res b b')
    (hr : ∀ i, i < 6 → i ∉ res) : b.toNat % 64 = b'.toNat % 64 := by
  refine Nat.eq_of_testBit_eq fun i => ?_
  rw [show (64 : Nat) = 2 ^ 6 from rfl, Nat.testBit_mod_two_pow, Nat.testBit_mod_two_pow]
  by_cases hi : i < 6
  · rw [show b.toNat.testBit i = b'.toNat.testBit i from h i (by omega) (hr i hi)]
  · simp [hi]

theorem Action.decode_dispatch {cfg : Cfg} {o : Nat} {g : U8} (y : List U8) (hg : g.toNat % 64 = o) :
    Action.decode cfg (bytesBits (g :: y))
      = (Action.dispatch cfg ⟨BitVec.ofNat 8 o⟩).eval (bytesBits (g :: y)) := by
  have h8 : 8 ≤ (bytesBits (g :: y)).length := by rw [bytesBits_length, List.length_cons]; omega
  unfold Action.decode
  rw [if_pos h8]
  have ho : opAt 2 (bytesBits (g :: y)) = ⟨BitVec.ofNat 8 o⟩ := by
    refine congrArg OpCode.mk (BitVec.eq_of_toNat_eq ?_)
    have := opAt_byte g y
    have hlt : g.toNat % 64 < 64 := Nat.mod_lt _ (by decide)
    rw [show BitVec.ofNat 8 _ = (opAt 2 (bytesBits (g :: y))).code from rfl, this, hg,
      BitVec.toNat_ofNat, Nat.mod_eq_of_lt (by omega)]
  rw [ho]

/-- A bit that the operand of opcode `o` does not look at. -/
theorem Action.tryFrom_ign {cfg : Cfg} {o k m n : Nat} {res : List Nat}
    (hi : Ign (Action.dispatch cfg ⟨BitVec.ofNat 8 o⟩) (8 * k + m) n) (hmn : m + n ≤ 8) {f f' : U8} {pre x x' : List U8}
    {b b' : U8} {t : List U8} (ho : f.toNat % 64 = o) (ho' : f'.toNat % 64 = o)
    (hx : f :: x = pre ++ b :: t) (hx' : f' :: x' = pre ++ b' :: t) (hk : pre.length = k)
    (hres : ∀ i, i < 8 → (i < 8 - m - n ∨ 8 - m ≤ i) → i ∉ res) (hb : Spec.sameExcept res b b') :
    Action.tryFrom cfg (f :: x) = Action.tryFrom cfg (f' :: x') := by
  have hl : (f :: x).length = (f' :: x').length := by rw [hx, hx']; simp
  refine Action.tryFrom_congr hl ?_
  rw [Action.decode_dispatch _ ho, Action.decode_dispatch _ ho', hx, hx']
  exact hi.byte hmn hk fun i hi h' => hb i hi (hres i hi h')

theorem Op.ActionQuery.eval_congr {a : U8} {x y : List U8}
    (h : Query.read.eval (bytesBits x) = Query.read.eval (bytesBits y)) :
    Op.ActionQuery.read.eval (bytesBits (a :: x)) = Op.ActionQuery.read.eval (bytesBits (a :: y)) := by
  have e : ∀ z, Op.ActionQuery.read.eval (bytesBits (a :: z)) =
      (Query.read.bind fun q => P.pure ⟨⟨[a.getLsbD 7] == [true], [a.getLsbD 6] == [true]⟩, ⟨BitVec.ofNat 8 (bitsNat [a.getLsbD 5,
        a.getLsbD 4, a.getLsbD 3, a.getLsbD 2, a.getLsbD 1, a.getLsbD 0])⟩, q⟩).eval (bytesBits z) := by
    intro z
    rw [show bytesBits (a :: z) = [a.getLsbD 7] ++ ([a.getLsbD 6] ++ ([a.getLsbD 5,
        a.getLsbD 4, a.getLsbD 3, a.getLsbD 2, a.getLsbD 1, a.getLsbD 0] ++ bytesBits z)) from rfl]
    unfold Op.ActionQuery.read ActionHeader.read OpCode.read
    simp only [P.bind_eq, Ign.bind_assoc, P.pure_bind]
    show (P.bits 1 _).eval _ = _
    rw [P.eval_bits, if_pos (by simp)]
    show (P.bits 1 _).eval _ = _
    rw [P.eval_bits, if_pos (by simp)]
    show (P.bits 6 _).eval _ = _
    rw [P.eval_bits, if_pos (by simp)]
    rfl
  rw [e, e, P.eval_bind, P.eval_bind, h]

theorem Action.query_congr {cfg : Cfg} {a b b' : U8} {t : List U8}
    (hop : a.toNat % 64 = 8 ∨ a.toNat % 64 = 9 ∨ a.toNat % 64 = 11)
    (h : Query.read.eval (bytesBits (b :: t)) = Query.read.eval (bytesBits (b' :: t))) :
    Action.tryFrom cfg (a :: b :: t) = Action.tryFrom cfg (a :: b' :: t) := by
  refine Action.tryFrom_congr rfl ?_
  rcases hop with hop | hop | hop
  all_goals
    rw [Action.decode_dispatch _ hop, Action.decode_dispatch _ hop]
    show (P.bind Op.ActionQuery.read _).eval _ = (P.bind Op.ActionQuery.read _).eval _
    rw [P.eval_bind, P.eval_bind, Op.ActionQuery.eval_congr h]

/-- **C40** Forward action: bit 7 of the first byte. -/
theorem C40_forward_partial (cfg : Cfg) (b b' : U8) (t : List U8) (hop : b.toNat % 64 = 50)
    (h : Spec.sameExcept [7] b b') : Action.tryFrom cfg (b :: t) = Action.tryFrom cfg (b' :: t) :=
  Action.tryFrom_ign (o := 50) (k := 0) (m := 0) (n := 1) (pre := [])
    (by show Ign (do let o ← Op.Forward.read cfg; P.pure (Action.forward o)) _ _
        unfold Op.Forward.read; ign) (by decide) hop ((h.opcode (by decide)).symm.trans hop) rfl rfl rfl
    (by decide) h

/-- **C40** Request Tag action: bit 6 of the first byte. -/
theorem C40_request_tag_partial (cfg : Cfg) (b b' : U8) (t : List U8) (hop : b.toNat % 64 = 52)
    (h : Spec.sameExcept [6] b b') : Action.tryFrom cfg (b :: t) = Action.tryFrom cfg (b' :: t) :=
  Action.tryFrom_ign (o := 52) (k := 0) (m := 1) (n := 1) (pre := [])
    (by show Ign (do let o ← Op.RequestTag.read; P.pure (Action.requestTag o)) _ _
        unfold Op.RequestTag.read; ign) (by decide) hop ((h.opcode (by decide)).symm.trans hop) rfl rfl rfl
    (by decide) h

/-- **C40** Write File Properties, Create New File and Return File Properties: bits 3 and 2 of the
fourth byte, the file properties of the operand. -/
theorem C40_file_properties_partial (cfg : Cfg) (a f p b b' : U8) (t : List U8)
    (hop : a.toNat % 64 = 6 ∨ a.toNat % 64 = 17 ∨ a.toNat % 64 = 33) (h : Spec.sameExcept [3, 2] b b') :
    Action.tryFrom cfg (a :: f :: p :: b :: t) = Action.tryFrom cfg (a :: f :: p :: b' :: t) := by
  have key : Ign Op.FileProperties.read (8 * 3 + 4) 2 := by
    unfold Op.FileProperties.read ActionHeader.read OpCode.read Data.FileHeader.read Data.FilePermissions.read
      Data.UserPermissions.reader Data.FileProperties.read Data.ActionCondition.reader
    ign
  rcases hop with hop | hop | hop
  · exact Action.tryFrom_ign (o := 6) (k := 3) (m := 4) (n := 2) (pre := [a, f, p]) (Ign.bind key) (by decide)
      hop hop rfl rfl rfl (by decide) h
  · exact Action.tryFrom_ign (o := 17) (k := 3) (m := 4) (n := 2) (pre := [a, f, p]) (Ign.bind key) (by decide)
      hop hop rfl rfl rfl (by decide) h
  · exact Action.tryFrom_ign (o := 33) (k := 3) (m := 4) (n := 2) (pre := [a, f, p]) (Ign.bind key) (by decide)
      hop hop rfl rfl rfl (by decide) h

/-- **C40** Action Query, Break Query and Verify Checksum with a non-void query: bits 4 to 0 of the
second byte. -/
theorem C40_query_non_void_partial (cfg : Cfg) (a b b' : U8) (t : List U8)
    (hop : a.toNat % 64 = 8 ∨ a.toNat % 64 = 9 ∨ a.toNat % 64 = 11) (hq : b.toNat / 32 = 0)
    (h : Spec.sameExcept [4, 3, 2, 1, 0] b b') :
    Action.tryFrom cfg (a :: b :: t) = Action.tryFrom cfg (a :: b' :: t) :=
  Action.query_congr hop (Query.eval_non_void hq h)

/-- **C40** Action Query, Break Query and Verify Checksum with a string token search: bit 3 of the
second byte. -/
theorem C40_query_token_search_partial (cfg : Cfg) (a b b' : U8) (t : List U8)
    (hop : a.toNat % 64 = 8 ∨ a.toNat % 64 = 9 ∨ a.toNat % 64 = 11) (hq : b.toNat / 32 = 7)
    (h : Spec.sameExcept [3] b b') :
    Action.tryFrom cfg (a :: b :: t) = Action.tryFrom cfg (a :: b' :: t) :=
  Action.query_congr hop (Query.eval_token_search hq h)

/-- **C40** is violated by the TX status action of the wizzilab build: its six padding bits, in the
first byte, are where the action reader looks for the opcode. -/
theorem C40_tx_status_violates (cfg : Cfg) (hc : cfg.variant = .wizzilab) :
    ∃ b b' t o, Spec.sameExcept [5, 4, 3, 2, 1, 0] b b' ∧ Action.tryFrom cfg (b :: t) = .ok (.txStatus o) ∧
      Action.tryFrom cfg (b' :: t) = .error (.fault .parse) := by
  refine ⟨0x66, 0x40, [0x00, 0x40, 0x00], ⟨⟨0⟩, ⟨0x10, .other []⟩⟩, ?_, ?_, ?_⟩
  · intro i hi hn
    rcases i with _ | _ | _ | _ | _ | _ | _ | _ | i <;> first | rfl | exact absurd hn (by decide) | omega
  all_goals
    rcases cfg with ⟨v, a, b, c, d⟩
    cases hc
    cases a <;> cases b <;> cases c <;> cases d <;> decide +kernel

/-! ## Encoding -/

/-- The given bits of a byte are zero. -/
def Spec.zeroBits (reserved : List Nat) (b : U8) : Prop := ∀ i ∈ reserved, b.getLsbD i = false

theorem Wire.byte_cons {fs : List (Nat × Nat)} {os : List (Option (List U8))} {bytes : List U8}
    (h : Wire.join (Wire.byte fs :: os) = some bytes) :
    ∃ t, Wire.join os = some t ∧ bytes = BitVec.ofNat 8 (Wire.bits fs) :: t := by
  obtain ⟨x, y, h1, h2, rfl⟩ := Wire.join_cons h
  refine ⟨y, h2, ?_⟩
  injection h1 with h1
  subst h1
  simp [Spec.bigEndian]

theorem Wire.raw_cons {l : List U8} {os : List (Option (List U8))} {bytes : List U8}
    (h : Wire.join (Wire.raw l :: os) = some bytes) : ∃ t, Wire.join os = some t ∧ bytes = l ++ t := by
  obtain ⟨x, y, h1, h2, rfl⟩ := Wire.join_cons h
  refine ⟨y, h2, ?_⟩
  injection h1 with h1
  subst h1
  rfl

/-- **C40** channel header. -/
theorem C40_channel_header_zero (h : ChannelHeader) (bytes : List U8) (hb : h.write.toBytes = .ok bytes) :
    ∃ b, bytes = [b] ∧ Spec.zeroBits [7] b := by
  rw [(ChannelHeader.lay h).toBytes] at hb
  injection Wire.result_ok hb with hb
  refine ⟨_, hb.symm, ?_⟩
  obtain ⟨a, b, c⟩ := h
  unfold Spec.zeroBits
  cases a <;> cases b <;> cases c <;> decide

/-- **C40** DLL configuration. -/
theorem C40_dll_config_zero (d : DllConfig) : ∃ a t, d.write.toBytes = .ok (a :: 0 :: 0 :: t) :=
  ⟨_, _, (DllConfig.lay d).toBytes⟩

/-- **C40** file header. -/
theorem C40_file_header_zero (h : Data.FileHeader) (bytes : List U8) (hb : h.write.toBytes = .ok bytes) :
    ∃ a b t, bytes = a :: b :: t ∧ Spec.zeroBits [3, 2] b := by
  rw [(Data.FileHeader.lay h).toBytes] at hb
  unfold Wire.fileHeader at hb
  obtain ⟨x, h1, rfl⟩ := Wire.byte_cons (Wire.result_ok hb)
  obtain ⟨t, -, rfl⟩ := Wire.byte_cons h1
  refine ⟨_, _, _, rfl, ?_⟩
  unfold Spec.zeroBits
  cases h.properties.enabled <;> cases h.properties.condition <;> cases h.properties.storageClass <;> decide

/-- **C40** addressee outside the wizzilab build. -/
theorem C40_addressee_zero (cfg : Cfg) (hc : cfg.variant ≠ .wizzilab) (a : Addressee) (bytes : List U8)
    (h : (a.write cfg).toBytes = .ok bytes) : ∃ b t, bytes = b :: t ∧ Spec.zeroBits [7, 6] b := by
  rw [(Addressee.lay cfg a).toBytes] at h
  have h := Wire.result_ok h
  unfold Wire.addressee at h
  split at h
  · contradiction
  · obtain ⟨t, -, rfl⟩ := Wire.byte_cons h
    refine ⟨_, t, rfl, ?_⟩
    unfold Spec.zeroBits
    cases a.addressType <;> cases a.nlsMethod <;> decide

/-- **C40** interface status. -/
theorem C40_interface_status_zero (cfg : Cfg) (s : Dash7InterfaceStatus) (bytes : List U8)
    (h : (s.write cfg).toBytes = .ok bytes) :
    ∃ pre b t, bytes = pre ++ b :: t ∧ pre.length = 6 ∧ Spec.zeroBits [3, 2, 1, 0] b := by
  rw [(Dash7InterfaceStatus.lay cfg s).toBytes] at h
  obtain ⟨x, y, h1, h2, rfl⟩ := Wire.join_cons (Wire.result_ok h)
  obtain ⟨y', h3, rfl⟩ := Wire.raw_cons h2
  obtain ⟨t, -, rfl⟩ := Wire.byte_cons h3
  refine ⟨x ++ [s.rxLevel, s.linkBudget, s.targetRxLevel], _, t, (List.append_assoc _ _ _).symm, ?_, ?_⟩
  · injection h1 with h1
    subst h1
    rfl
  · unfold Spec.zeroBits
    cases s.nls <;> cases s.missed <;> cases s.retry <;> cases s.unicast <;> decide

/-- **C40** interface TX status. -/
theorem C40_interface_tx_status_zero (cfg : Cfg) (s : Dash7InterfaceTxStatus) (bytes : List U8)
    (h : (s.write cfg).toBytes = .ok bytes) : ∃ pre t, bytes = pre ++ 0 :: 0 :: 0 :: t ∧ pre.length = 5 := by
  rw [(Dash7InterfaceTxStatus.lay cfg s).toBytes] at h
  obtain ⟨x, y, h1, h2, rfl⟩ := Wire.join_cons (Wire.result_ok h)
  obtain ⟨t, -, rfl⟩ := Wire.raw_cons h2
  refine ⟨x ++ [s.targetRxLevel, s.error.code], t, by simp, ?_⟩
  injection h1 with h1
  subst h1
  rfl

/-- **C40** LoRaWAN configuration. -/
theorem C40_lorawan_zero (c : LoRaWANInterfaceConfiguration) (bytes : List U8) (h : c.write.toBytes = .ok bytes) :
    ∃ b t, bytes = b :: t ∧ Spec.zeroBits [7, 6, 5, 4, 3, 0] b := by
  rw [(LoRaWANInterfaceConfiguration.lay c).toBytes] at h
  obtain ⟨t, -, rfl⟩ := Wire.byte_cons (Wire.result_ok h)
  refine ⟨_, t, rfl, ?_⟩
  unfold Spec.zeroBits
  cases c.adrEnabled <;> cases c.requestAck <;> decide

/-- **C40** network hopping control. -/
theorem C40_hopping_control_zero (c : Net.HoppingControl) (bytes : List U8) (h : c.write.toBytes = .ok bytes) :
    ∃ b, bytes = [b] ∧ Spec.zeroBits [7, 3, 2, 1, 0] b := by
  have hl : Lay c.write (Wire.byte [(1, 0), (1, c.hopCounter.toNat),
      (2, Wire.addressType c.destinationAddressType), (4, 0)]) :=
    Lay.fld (Fld.cons Fld.pad (Fld.cons Fld.flag (Fld.cons (AddressType.fld _) (Fld.cons Fld.pad Fld.nil)))) rfl
  rw [hl.toBytes] at h
  injection Wire.result_ok h with h
  refine ⟨_, h.symm, ?_⟩
  unfold Spec.zeroBits
  cases c.hopCounter <;> cases c.destinationAddressType <;> decide

/-- Bit 3 of the first byte is there and zero. -/
def Spec.bit3Clear : Except Err (List U8) → Bool
  | .ok (b :: _) => !b.getLsbD 3
  | _ => false

theorem Net.Control.bit3 (cfg : Cfg) (c : Net.Control) : Spec.bit3Clear (c.write cfg).toBytes = true := by
  rcases c with ⟨h, k, t, m⟩
  rcases cfg with ⟨v, b1, b2, b3, b4⟩
  show Spec.bit3Clear (Net.Control.write ⟨v, false, false, false, false⟩ ⟨h, k, t, m⟩).toBytes = true
  cases v <;> cases h <;> cases k <;> cases t <;> cases m <;> decide +kernel

/-- **C40** network control. -/
theorem C40_network_control_zero (cfg : Cfg) (c : Net.Control) (bytes : List U8)
    (hb : (c.write cfg).toBytes = .ok bytes) : ∃ b t, bytes = b :: t ∧ Spec.zeroBits [3] b := by
  have h := Net.Control.bit3 cfg c
  rw [hb] at h
  cases bytes with
  | nil => cases h
  | cons b t => exact ⟨b, t, rfl, by simpa [Spec.zeroBits, Spec.bit3Clear] using h⟩

/-- **C40** queries. -/
theorem C40_query_zero (q : Query) (bytes : List U8) (h : q.write.toBytes = .ok bytes) :
    ∃ b t, bytes = b :: t ∧ (b.toNat / 32 = 0 → Spec.zeroBits [4, 3, 2, 1, 0] b) ∧
      (b.toNat / 32 = 7 → Spec.zeroBits [3] b) := by
  rw [(Query.lay q).toBytes] at h
  have h := Wire.result_ok h
  unfold Spec.zeroBits
  cases q with
  | nonVoid q =>
    obtain ⟨t, -, rfl⟩ := Wire.byte_cons h
    exact ⟨_, t, rfl, by decide, by decide⟩
  | comparisonWithZero q =>
    obtain ⟨t, -, rfl⟩ := Wire.byte_cons h
    refine ⟨_, t, rfl, ?_⟩
    cases q.maskPresent <;> cases q.params.signed <;> cases q.params.comparisonType <;> decide
  | comparisonWithValue q =>
    obtain ⟨t, -, rfl⟩ := Wire.byte_cons h
    refine ⟨_, t, rfl, ?_⟩
    cases q.maskPresent <;> cases q.params.signed <;> cases q.params.comparisonType <;> decide
  | comparisonWithOtherFile q =>
    obtain ⟨t, -, rfl⟩ := Wire.byte_cons h
    refine ⟨_, t, rfl, ?_⟩
    cases q.maskPresent <;> cases q.params.signed <;> cases q.params.comparisonType <;> decide
  | bitmapRangeComparison q =>
    obtain ⟨t, -, rfl⟩ := Wire.byte_cons h
    refine ⟨_, t, rfl, ?_⟩
    cases q.maskPresent <;> cases q.params.signed <;> cases q.params.comparisonType <;> decide
  | stringTokenSearch q =>
    obtain ⟨t, -, rfl⟩ := Wire.byte_cons h
    refine ⟨_, t, rfl, ?_⟩
    have : q.maxErrors.toNat % 2 ^ 3 < 8 := Nat.mod_lt _ (by decide)
    simp only [Wire.bits, Wire.width]
    generalize q.maxErrors.toNat % 2 ^ 3 = e at this ⊢
    have : e = 0 ∨ e = 1 ∨ e = 2 ∨ e = 3 ∨ e = 4 ∨ e = 5 ∨ e = 6 ∨ e = 7 := by omega
    cases q.maskPresent <;> rcases this with rfl | rfl | rfl | rfl | rfl | rfl | rfl | rfl <;> decide

/-- **C40** Forward and Request Tag actions. -/
theorem C40_forward_zero (cfg : Cfg) (o : Op.Forward) (bytes : List U8)
    (h : (Action.forward o).toBytes cfg = .ok bytes) : ∃ b t, bytes = b :: t ∧ Spec.zeroBits [7] b := by
  rw [C51_action_layout _ _ rfl] at h
  obtain ⟨t, -, rfl⟩ := Wire.byte_cons (Wire.result_ok h)
  refine ⟨_, t, rfl, ?_⟩
  unfold Spec.zeroBits
  cases o.response <;> decide

theorem C40_request_tag_zero (cfg : Cfg) (o : Op.RequestTag) (bytes : List U8)
    (h : (Action.requestTag o).toBytes cfg = .ok bytes) : ∃ b t, bytes = b :: t ∧ Spec.zeroBits [6] b := by
  rw [C51_action_layout _ _ rfl] at h
  have h : Wire.join [Wire.action1 o.endOfPacket false 52, Wire.raw [o.id]] = some bytes := Wire.result_ok h
  obtain ⟨t, -, rfl⟩ := Wire.byte_cons h
  refine ⟨_, t, rfl, ?_⟩
  unfold Spec.zeroBits
  cases o.endOfPacket <;> decide

/-! ## Examples -/

/-- Two bytes that differ in bit 7 only. -/
theorem Spec.sameExcept_of {res : List Nat} {b b' : U8}
    (h : ∀ i : Fin 8, i.val ∉ res → b.getLsbD i = b'.getLsbD i) : Spec.sameExcept res b b' :=
  fun i hi hn => h ⟨i, hi⟩ hn

example : Spec.sameExcept [7] 0x32 0xB2 ∧ (0x32 : U8).toNat % 64 = 50 :=
  ⟨Spec.sameExcept_of (by decide), rfl⟩
example (cfg : Cfg) : Action.tryFrom cfg [0xB2, 0x00] = .ok (.forward ⟨false, ⟨50⟩, .host⟩) :=
  (C40_forward_partial cfg 0x32 0xB2 [0x00] rfl (Spec.sameExcept_of (by decide))).symm.trans (by
    rcases cfg with ⟨v, a, b, c, d⟩
    cases v <;> cases a <;> cases b <;> cases c <;> cases d <;> decide +kernel)
example (cfg : Cfg) : Action.tryFrom cfg [0xF4, 0x07] = .ok (.requestTag ⟨true, ⟨52⟩, 7⟩) :=
  (C40_request_tag_partial cfg 0xB4 0xF4 [0x07] rfl (Spec.sameExcept_of (by decide))).symm.trans (by
    rcases cfg with ⟨v, a, b, c, d⟩
    cases v <;> cases a <;> cases b <;> cases c <;> cases d <;> decide +kernel)
example : derivedTryFrom ChannelHeader.read.run [0xB2] = .ok ⟨.band868, .loRate, .fecPn9⟩ := by decide +kernel
example : derivedTryFrom DllConfig.read.run [1, 0xFF, 0xEE, 2, 3, 4, 5] = .ok ⟨1, 2, 3, 4, 5⟩ := by decide +kernel
example : derivedTryFrom Query.read.run [0x1F, 4, 0x42, 0] = .ok (.nonVoid ⟨⟨4⟩, ⟨0x42, ⟨0⟩⟩⟩) := by decide +kernel
example : derivedTryFrom Query.read.run [0xFA, 1, 0xFF, 0x61, 0x42, 0]
    = .ok (.stringTokenSearch ⟨true, 2, ⟨1⟩, [0xFF], [0x61], ⟨0x42, ⟨0⟩⟩⟩) := by decide +kernel
example : derivedTryFrom (Addressee.read Sample.spec).run [0xD0, 0x21]
    = derivedTryFrom (Addressee.read Sample.spec).run [0x10, 0x21] :=
  C40_addressee Sample.spec (by decide) _ _ _ (Spec.sameExcept_of (by decide))
example : derivedTryFrom (Addressee.read Sample.spec).run [0x10, 0x21]
    = .ok (Addressee.new false .any .noId .none ⟨2, 1⟩) := by decide +kernel

#print axioms C40_channel_header
#print axioms C40_file_header
#print axioms C40_dll_config
#print axioms C40_addressee
#print axioms C40_interface_status
#print axioms C40_interface_tx_status
#print axioms C40_lorawan
#print axioms C40_hopping_control
#print axioms C40_network_control
#print axioms C40_non_void
#print axioms C40_string_token_search
#print axioms C40_forward_partial
#print axioms C40_request_tag_partial
#print axioms C40_file_properties_partial
#print axioms C40_query_non_void_partial
#print axioms C40_query_token_search_partial
#print axioms C40_tx_status_violates
#print axioms C40_channel_header_zero
#print axioms C40_dll_config_zero
#print axioms C40_file_header_zero
#print axioms C40_addressee_zero
#print axioms C40_interface_status_zero
#print axioms C40_interface_tx_status_zero
#print axioms C40_lorawan_zero
#print axioms C40_hopping_control_zero
#print axioms C40_network_control_zero
#print axioms C40_query_zero
#print axioms C40_forward_zero
#print axioms C40_request_tag_zero

end Dash7
