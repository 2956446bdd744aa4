import Verif.Lemmas.Default
import Verif.Model.Cli
import Verif.Model.Command
import Verif.Props.Samples

/-!
# The test vectors of the repository, run against the model

These are tests of the model, not properties: each `#[test]` of `/repo/dash7/src` is repeated with the
definitions of the model in place of the Rust functions. A test of the repository passes for a feature if it
passes in every configuration with that variant, so the examples go through all of `Cfg.all` (every setting of
the open deku behaviours, both host byte orders unless the vector itself fixes one). Two tests are left out
(`/repo/dash7/src/app/command.rs:543-679`): they ask for `subiot_v0_0`, with which the crate does not compile
(`/repo/dash7/src/app/operation/mod.rs:347,367` take away the functions the derive calls).
-/

namespace Dash7.Vectors

/-- `/repo/dash7/src/test_tools.rs:13-46` (`test_item`): the item is written as the data, and the data is read
as the item. -/
def Passes {α : Type} (write : α → Except Err (List U8)) (read : List U8 → Except Err α) (item : α)
    (data : List U8) : Prop := write item = .ok data ∧ read data = .ok item

/-- `/repo/dash7/src/test_tools.rs:13-46`: whether it passes can be computed. -/
instance {α : Type} [DecidableEq α] (write : α → Except Err (List U8)) (read : List U8 → Except Err α)
    (item : α) (data : List U8) : Decidable (Passes write read item data) := by
  unfold Passes; infer_instance

/-! `/repo/dash7/src/app/action.rs:399-411` (`test_nop`) -/
example : ∀ cfg ∈ Cfg.all, Passes (Action.toBytes cfg) (Action.tryFrom cfg)
    (.nop ⟨⟨false, true⟩, ⟨0⟩⟩)
    [0x40] := by decide +kernel

/-! `/repo/dash7/src/app/action.rs:413-430` (`test_read_file_data`) -/
example : ∀ cfg ∈ Cfg.all, Passes (Action.toBytes cfg) (Action.tryFrom cfg)
    (.readFileData ⟨⟨false, true⟩, ⟨1⟩, ⟨1, ⟨2⟩⟩, ⟨3⟩⟩)
    [0x41, 0x01, 0x02, 0x03] := by decide +kernel

/-! `/repo/dash7/src/app/action.rs:432-445` (`test_read_file_properties`) -/
example : ∀ cfg ∈ Cfg.all, Passes (Action.toBytes cfg) (Action.tryFrom cfg)
    (.readFileProperties ⟨⟨false, false⟩, ⟨2⟩, 9⟩)
    [0x02, 0x09] := by decide +kernel

/-! `/repo/dash7/src/app/action.rs:447-465` (`test_write_file_data`) -/
example : ∀ cfg ∈ Cfg.all, Passes (Action.toBytes cfg) (Action.tryFrom cfg)
    (.writeFileData (.new ⟨true, false⟩ ⟨0xF9, ⟨5⟩⟩ (.other [1, 2, 3]) ⟨4⟩))
    [0x84, 0xF9, 0x05, 0x03, 0x01, 0x02, 0x03] := by decide +kernel

/-! `/repo/dash7/src/app/action.rs:467-505` (`test_return_file_properties`) -/
example : ∀ cfg ∈ Cfg.all, Passes (Action.toBytes cfg) (Action.tryFrom cfg)
    (.returnFileProperties ⟨⟨false, false⟩, ⟨33⟩, 9, ⟨⟨true, false, ⟨true, true, true⟩, ⟨false, false, false⟩⟩,
    ⟨false, .read, .permanent⟩, 1, 2, 0xDEADBEEF, 0xBAADFACE⟩⟩)
    [0x21, 0x09, 0xB8, 0x13, 0x01, 0x02, 0xDE, 0xAD, 0xBE, 0xEF, 0xBA, 0xAD, 0xFA, 0xCE] := by decide +kernel

/-! `/repo/dash7/src/app/action.rs:507-545` (`test_write_file_properties`) -/
example : ∀ cfg ∈ Cfg.all, Passes (Action.toBytes cfg) (Action.tryFrom cfg)
    (.writeFileProperties ⟨⟨true, false⟩, ⟨6⟩, 9, ⟨⟨true, false, ⟨true, true, true⟩, ⟨false, false, false⟩⟩,
    ⟨false, .read, .permanent⟩, 1, 2, 0xDEADBEEF, 0xBAADFACE⟩⟩)
    [0x86, 0x09, 0xB8, 0x13, 0x01, 0x02, 0xDE, 0xAD, 0xBE, 0xEF, 0xBA, 0xAD, 0xFA, 0xCE] := by decide +kernel

/-! `/repo/dash7/src/app/action.rs:547-561` (`test_permission_request`) -/
example : ∀ cfg ∈ Cfg.all, Passes (Action.toBytes cfg) (Action.tryFrom cfg)
    (.permissionRequest ⟨⟨false, false⟩, ⟨10⟩, .root, .dash7 #v[1, 2, 3, 4, 5, 6, 7, 8]⟩)
    [0x0A, 0x01, 0x42, 0x01, 0x02, 0x03, 0x04, 0x05, 0x06, 0x07, 0x08] := by decide +kernel

/-! `/repo/dash7/src/app/action.rs:563-576` (`test_exist_file`) -/
example : ∀ cfg ∈ Cfg.all, Passes (Action.toBytes cfg) (Action.tryFrom cfg)
    (.existFile ⟨⟨false, false⟩, ⟨16⟩, 9⟩)
    [0x10, 0x09] := by decide +kernel

/-! `/repo/dash7/src/app/action.rs:578-616` (`test_create_new_file`) -/
example : ∀ cfg ∈ Cfg.all, Passes (Action.toBytes cfg) (Action.tryFrom cfg)
    (.createNewFile ⟨⟨true, false⟩, ⟨17⟩, 3, ⟨⟨true, false, ⟨true, true, true⟩, ⟨false, false, false⟩⟩, ⟨false,
    .read, .permanent⟩, 1, 2, 0xDEADBEEF, 0xBAADFACE⟩⟩)
    [0x91, 0x03, 0xB8, 0x13, 0x01, 0x02, 0xDE, 0xAD, 0xBE, 0xEF, 0xBA, 0xAD, 0xFA, 0xCE] := by decide +kernel

/-! `/repo/dash7/src/app/action.rs:618-631` (`test_delete_file`) -/
example : ∀ cfg ∈ Cfg.all, Passes (Action.toBytes cfg) (Action.tryFrom cfg)
    (.deleteFile ⟨⟨false, true⟩, ⟨18⟩, 9⟩)
    [0x52, 0x09] := by decide +kernel

/-! `/repo/dash7/src/app/action.rs:633-646` (`test_restore_file`) -/
example : ∀ cfg ∈ Cfg.all, Passes (Action.toBytes cfg) (Action.tryFrom cfg)
    (.restoreFile ⟨⟨true, true⟩, ⟨19⟩, 9⟩)
    [0xD3, 0x09] := by decide +kernel

/-! `/repo/dash7/src/app/action.rs:648-661` (`test_flush_file`) -/
example : ∀ cfg ∈ Cfg.all, Passes (Action.toBytes cfg) (Action.tryFrom cfg)
    (.flushFile ⟨⟨false, false⟩, ⟨20⟩, 9⟩)
    [0x14, 0x09] := by decide +kernel

/-! `/repo/dash7/src/app/action.rs:663-677` (`test_copy_file`) -/
example : ∀ cfg ∈ Cfg.all, Passes (Action.toBytes cfg) (Action.tryFrom cfg)
    (.copyFile ⟨⟨false, false⟩, ⟨23⟩, 0x42, 0x24⟩)
    [0x17, 0x42, 0x24] := by decide +kernel

/-! `/repo/dash7/src/app/action.rs:679-692` (`test_execute_file`) -/
example : ∀ cfg ∈ Cfg.all, Passes (Action.toBytes cfg) (Action.tryFrom cfg)
    (.executeFile ⟨⟨false, false⟩, ⟨31⟩, 9⟩)
    [0x1F, 0x09] := by decide +kernel

/-! `/repo/dash7/src/app/action.rs:694-713` (`test_return_file_data`) -/
example : ∀ cfg ∈ Cfg.all, Passes (Action.toBytes cfg) (Action.tryFrom cfg)
    (.returnFileData (.new ⟨false, false⟩ ⟨0xF9, ⟨5⟩⟩ (.other [1, 2, 3]) ⟨32⟩))
    [0x20, 0xF9, 0x05, 0x03, 0x01, 0x02, 0x03] := by decide +kernel

/-! `/repo/dash7/src/app/action.rs:715-734` (`test_action_query`) -/
example : ∀ cfg ∈ Cfg.all, Passes (Action.toBytes cfg) (Action.tryFrom cfg)
    (.actionQuery ⟨⟨true, true⟩, ⟨8⟩, .nonVoid ⟨⟨4⟩, ⟨5, ⟨6⟩⟩⟩⟩)
    [0xC8, 0x00, 0x04, 0x05, 0x06] := by decide +kernel

/-! `/repo/dash7/src/app/action.rs:736-755` (`test_break_query`) -/
example : ∀ cfg ∈ Cfg.all, Passes (Action.toBytes cfg) (Action.tryFrom cfg)
    (.breakQuery ⟨⟨true, true⟩, ⟨9⟩, .nonVoid ⟨⟨4⟩, ⟨5, ⟨6⟩⟩⟩⟩)
    [0xC9, 0x00, 0x04, 0x05, 0x06] := by decide +kernel

/-! `/repo/dash7/src/app/action.rs:757-776` (`test_verify_checksum`) -/
example : ∀ cfg ∈ Cfg.all, Passes (Action.toBytes cfg) (Action.tryFrom cfg)
    (.verifyChecksum ⟨⟨false, false⟩, ⟨11⟩, .nonVoid ⟨⟨4⟩, ⟨5, ⟨6⟩⟩⟩⟩)
    [0x0B, 0x00, 0x04, 0x05, 0x06] := by decide +kernel

/-! `/repo/dash7/src/app/action.rs:778-784` (`test_forward`) -/
example : ∀ cfg ∈ Cfg.all, Passes (Action.toBytes cfg) (Action.tryFrom cfg)
    (.forward (.new true .host))
    [0x72, 0x00] := by decide +kernel

/-! `/repo/dash7/src/app/action.rs:786-792` (`test_forward_serial`) -/
example : ∀ cfg ∈ Cfg.all, Passes (Action.toBytes cfg) (Action.tryFrom cfg)
    (.forward (.new false .serial))
    [0x32, 0x01] := by decide +kernel

/-! `/repo/dash7/src/app/action.rs:794-814` (`test_indirect_forward_dash7_serialization`) -/
example : ∀ cfg ∈ Cfg.all, Passes (Action.toBytes cfg) (Action.tryFrom cfg)
    (.indirectForward (.new true (some (.dash7 (.new false .any (.vId 0xABCD) (.aesCcm32 #v[1, 2, 3, 4, 5])
    .unavailable)))))
    [0xF3, 0xD7, 0x37, 0xFF, 0xAB, 0xCD, 0x01, 0x02, 0x03, 0x04, 0x05] := by decide +kernel

/-! `/repo/dash7/src/app/action.rs:816-834` (`test_indirect_forward_dash7_deserialization`) -/
example : ∀ cfg ∈ Cfg.all, Passes (Action.toBytes cfg) (Action.tryFrom cfg)
    (.indirectForward (.new true (some (.dash7 (.new false .any (.vId 0xABCD) (.aesCcm32 #v[1, 2, 3, 4, 5])
    .unavailable)))))
    [0xF3, 0xD7, 0x37, 0xFF, 0xAB, 0xCD, 0x01, 0x02, 0x03, 0x04, 0x05] := by decide +kernel

/-! `/repo/dash7/src/app/action.rs:836-848` (`test_request_tag`) -/
example : ∀ cfg ∈ Cfg.all, Passes (Action.toBytes cfg) (Action.tryFrom cfg)
    (.requestTag ⟨true, ⟨52⟩, 8⟩)
    [0xB4, 0x08] := by decide +kernel

/-! `/repo/dash7/src/app/action.rs:850-859` (`test_logic`) -/
example : ∀ cfg ∈ Cfg.all, Passes (Action.toBytes cfg) (Action.tryFrom cfg)
    (.logic ⟨.nand, ⟨49⟩⟩)
    [0xF1] := by decide +kernel

/-! `/repo/dash7/src/app/action.rs:861-864` (`test_chunk`) -/
example : ∀ cfg ∈ Cfg.all, Passes (Action.toBytes cfg) (Action.tryFrom cfg)
    (.chunk (.ofStep .end))
    [0xB0] := by decide +kernel

/-! `/repo/dash7/src/app/action.rs:866-879` (`test_response_tag`) -/
example : ∀ cfg ∈ Cfg.all, Passes (Action.toBytes cfg) (Action.tryFrom cfg)
    (.responseTag ⟨⟨true, false⟩, ⟨35⟩, 8⟩)
    [0xA3, 0x08] := by decide +kernel

/-! `/repo/dash7/src/app/action.rs:881-893` (`test_status`) -/
example : ∀ cfg ∈ Cfg.all, Passes (Action.toBytes cfg) (Action.tryFrom cfg)
    (.status (.ofStatus (.action ⟨2, ⟨0xF6⟩⟩)))
    [0x22, 0x02, 0xF6] := by decide +kernel

/-! `/repo/dash7/src/app/action.rs:895-907` (`test_extension`) -/
example : ∀ cfg ∈ Cfg.all, Passes (Action.toBytes cfg) (Action.tryFrom cfg)
    (.extension ⟨⟨true, true⟩, ⟨63⟩⟩)
    [0xFF] := by decide +kernel

/-! `/repo/dash7/src/app/action.rs:909-950` (`test_interface_status`) -/
example : ∀ cfg ∈ Cfg.all, Passes (Action.toBytes cfg) (Action.tryFrom cfg)
    (.status (.ofStatus (.interface (.ofStatus (.dash7 ⟨⟨⟨.band868, .loRate, .fecPn9⟩, 50⟩, 45, 62, 80, true,
    false, false, false, 0, 0, .ofU32 384, .new false .any (.uId 4123107267735781422) .none (.new 0 1)⟩)))))
    [0x62, 0xD7, 0x14, 0x32, 0x00, 0x32, 0x2D, 0x3E, 0x50, 0x80, 0x00, 0x00, 0x58, 0x20, 0x01, 0x39, 0x38,
    0x38, 0x37, 0x00, 0x39, 0x00, 0x2E] := by decide +kernel

/-! `/repo/dash7/src/app/operation/mod.rs:594-599` (`test_length`) -/
example : ∀ cfg ∈ Cfg.all, Passes (Item.toBytes cfg .length) (Item.tryFrom cfg .length)
    (⟨1⟩)
    [0x01] := by decide +kernel
example : ∀ cfg ∈ Cfg.all, Passes (Item.toBytes cfg .length) (Item.tryFrom cfg .length)
    (⟨65⟩)
    [0x40, 0x41] := by decide +kernel
example : ∀ cfg ∈ Cfg.all, Passes (Item.toBytes cfg .length) (Item.tryFrom cfg .length)
    (⟨4263936⟩)
    [0xC0, 0x41, 0x10, 0x00] := by decide +kernel

/-! `/repo/dash7/src/app/operation/mod.rs:601-610` (`test_file_offset`) -/
example : ∀ cfg ∈ Cfg.all, Passes (Item.toBytes cfg .fileOffset) (Item.tryFrom cfg .fileOffset)
    (⟨2, ⟨0x3FFF⟩⟩)
    [0x02, 0x7F, 0xFF] := by decide +kernel

/-! `/repo/dash7/src/app/operation/mod.rs:612-621` (`test_action_status`) -/
example : ∀ cfg ∈ Cfg.all, Passes (Item.toBytes cfg .actionStatus) (Item.tryFrom cfg .actionStatus)
    (⟨2, ⟨0xF6⟩⟩)
    [0x02, 0xF6] := by decide +kernel

/-! `/repo/dash7/src/app/operation/mod.rs:623-659` (`test_interface_status`) -/
example : ∀ cfg ∈ Cfg.all, Passes (Item.toBytes cfg .interfaceStatusOperation) (Item.tryFrom cfg .interfaceStatusOperation)
    (.ofStatus (.dash7 ⟨⟨⟨.band868, .loRate, .fecPn9⟩, 50⟩, 45, 62, 80, true, false, false, false, 0, 0, .ofU32
    384, .new false .any (.uId 4123107267735781422) .none (.new 0 1)⟩))
    [0xD7, 0x14, 0x32, 0x00, 0x32, 0x2D, 0x3E, 0x50, 0x80, 0x00, 0x00, 0x58, 0x20, 0x01, 0x39, 0x38, 0x38,
    0x37, 0x00, 0x39, 0x00, 0x2E] := by decide +kernel

/-! `/repo/dash7/src/app/query.rs:261-273` (`test_query_non_void`) -/
example : ∀ cfg ∈ Cfg.all, Passes (Item.toBytes cfg .query) (Item.tryFrom cfg .query)
    (.nonVoid ⟨⟨4⟩, ⟨5, ⟨6⟩⟩⟩)
    [0x00, 0x04, 0x05, 0x06] := by decide +kernel

/-! `/repo/dash7/src/app/query.rs:275-291` (`test_query_comparison_with_zero`) -/
example : ∀ cfg ∈ Cfg.all, Passes (Item.toBytes cfg .query) (Item.tryFrom cfg .query)
    (.comparisonWithZero (.new ⟨true, .inequal⟩ [0, 1, 2] ⟨4, ⟨5⟩⟩))
    [0x38, 0x03, 0x00, 0x01, 0x02, 0x04, 0x05] := by decide +kernel

/-! `/repo/dash7/src/app/query.rs:293-310` (`test_query_comparison_with_value`) -/
example : ∀ cfg ∈ Cfg.all, Passes (Item.toBytes cfg .query) (Item.tryFrom cfg .query)
    (.comparisonWithValue (.new ⟨false, .equal⟩ [] [9, 9, 9] ⟨4, ⟨5⟩⟩))
    [0x41, 0x03, 0x09, 0x09, 0x09, 0x04, 0x05] := by decide +kernel

/-! `/repo/dash7/src/app/query.rs:312-332` (`test_query_comparison_with_other_file`) -/
example : ∀ cfg ∈ Cfg.all, Passes (Item.toBytes cfg .query) (Item.tryFrom cfg .query)
    (.comparisonWithOtherFile (.new ⟨false, .greaterThan⟩ [0xFF, 0xFF] ⟨4, ⟨5⟩⟩ ⟨8, ⟨9⟩⟩))
    [0x74, 0x02, 0xFF, 0xFF, 0x04, 0x05, 0x08, 0x09] := by decide +kernel

/-! `/repo/dash7/src/app/query.rs:334-352` (`test_query_bitmap_range_comparison`) -/
example : ∀ cfg ∈ Cfg.all, Passes (Item.toBytes cfg .query) (Item.tryFrom cfg .query)
    (.bitmapRangeComparison (.new ⟨false, .inRange⟩ 3 32 [1, 2, 3, 4] ⟨0, ⟨4⟩⟩))
    [0x91, 0x04, 0x03, 0x20, 0x01, 0x02, 0x03, 0x04, 0x00, 0x04] := by decide +kernel

/-! `/repo/dash7/src/app/query.rs:354-368` (`test_query_string_token_search`) -/
example : ∀ cfg ∈ Cfg.all, Passes (Item.toBytes cfg .query) (Item.tryFrom cfg .query)
    (.stringTokenSearch (.new 2 [0xFF, 0, 0xFF, 0] [1, 2, 3, 4] ⟨0, ⟨4⟩⟩))
    [0xF2, 0x04, 0xFF, 0x00, 0xFF, 0x00, 0x01, 0x02, 0x03, 0x04, 0x00, 0x04] := by decide +kernel

/-! `/repo/dash7/src/network/mod.rs:119-133` (`test_vid_aesccm32`) -/
example : ∀ cfg ∈ Cfg.all, Passes (Item.toBytes cfg .addressee) (Item.tryFrom cfg .addressee)
    (.new false .any (.vId 0xABCD) (.aesCcm32 #v[0, 0x11, 0x22, 0x33, 0x44]) (.new 15 15))
    [0x37, 0xFF, 0xAB, 0xCD, 0x00, 0x11, 0x22, 0x33, 0x44] := by decide +kernel

/-! `/repo/dash7/src/network/mod.rs:135-149` (`test_noid_none`) -/
example : ∀ cfg ∈ Cfg.all, Passes (Item.toBytes cfg .addressee) (Item.tryFrom cfg .addressee)
    (.new false .any (.noId) (.none) (.default))
    [0x10, 0x00] := by decide +kernel

/-! `/repo/dash7/src/network/mod.rs:151-165` (`test_nbid_none`) -/
example : ∀ cfg ∈ Cfg.all, Passes (Item.toBytes cfg .addressee) (Item.tryFrom cfg .addressee)
    (.new false .any (.nbId ⟨0, false⟩) (.none) (.default))
    [0x00, 0x00, 0x00] := by decide +kernel

/-! `/repo/dash7/src/network/mod.rs:167-181` (`test_uid_none`) -/
example : ∀ cfg ∈ Cfg.all, Passes (Item.toBytes cfg .addressee) (Item.tryFrom cfg .addressee)
    (.new false .any (.uId 0) (.none) (.default))
    [0x20, 0x00, 0x00, 0x00, 0x00, 0x00, 0x00, 0x00, 0x00, 0x00] := by decide +kernel

/-! `/repo/dash7/src/network/mod.rs:183-197` (`test_nbid_aesctr`) -/
example : ∀ cfg ∈ Cfg.all, Passes (Item.toBytes cfg .addressee) (Item.tryFrom cfg .addressee)
    (.new false .any (.nbId ⟨1, false⟩) (.aesCtr #v[0, 1, 2, 3, 4]) (.default))
    [0x01, 0x00, 0x01, 0x00, 0x01, 0x02, 0x03, 0x04] := by decide +kernel

/-! `/repo/dash7/src/network/mod.rs:199-213` (`test_vid_none`) -/
example : ∀ cfg ∈ Cfg.all, Passes (Item.toBytes cfg .addressee) (Item.tryFrom cfg .addressee)
    (.new false .any (.vId 0x1234) (.none) (.new 0 5))
    [0x30, 0x05, 0x12, 0x34] := by decide +kernel

/-! `/repo/dash7/src/network/mod.rs:215-232` (`test_uid_none2`) -/
example : ∀ cfg ∈ Cfg.all, Passes (Item.toBytes cfg .addressee) (Item.tryFrom cfg .addressee)
    (.new false .any (.uId 0x1234567890123456) (.none) (.new 6 9))
    [0x20, 0x69, 0x12, 0x34, 0x56, 0x78, 0x90, 0x12, 0x34, 0x56] := by decide +kernel

/-! `/repo/dash7/src/network/mod.rs:234-248` (`test_noid_aescbcmac128`) -/
example : ∀ cfg ∈ Cfg.all, Passes (Item.toBytes cfg .addressee) (Item.tryFrom cfg .addressee)
    (.new false .any (.noId) (.aesCbcMac128 #v[10, 20, 30, 40, 50]) (.new 0xB 0xE))
    [0x12, 0xBE, 0x0A, 0x14, 0x1E, 0x28, 0x32] := by decide +kernel

/-! `/repo/dash7/src/network/mod.rs:250-264` (`test_nbid_none2`) -/
example : ∀ cfg ∈ Cfg.all, Passes (Item.toBytes cfg .addressee) (Item.tryFrom cfg .addressee)
    (.new false .any (.nbId ⟨100, false⟩) (.none) (.new 0 0))
    [0x00, 0x00, 0x39] := by decide +kernel

/-! `/repo/dash7/src/session/mod.rs:245-268` (`test_qos`) -/
example : ∀ cfg ∈ Cfg.all, Passes (Item.toBytes cfg .qos) (Item.tryFrom cfg .qos)
    (.default)
    [0x00] := by decide +kernel
example : ∀ cfg ∈ Cfg.all, Passes (Item.toBytes cfg .qos) (Item.tryFrom cfg .qos)
    (⟨true, true, .no, .any⟩)
    [0xC2] := by decide +kernel
example : ∀ cfg ∈ Cfg.all, Passes (Item.toBytes cfg .qos) (Item.tryFrom cfg .qos)
    (⟨false, false, .no, .noRepeat⟩)
    [0x04] := by decide +kernel

/-! `/repo/dash7/src/session/interface_final.rs:105-130` (`test_interface_tx_status`) -/
example : ∀ cfg ∈ Cfg.all, cfg.variant = .wizzilab ∧ cfg.bigEndianHost = false → Passes (Item.toBytes cfg .dash7InterfaceTxStatus) (Item.tryFrom cfg .dash7InterfaceTxStatus)
    (⟨⟨⟨.rfu0, .loRate, .rfu⟩, 0x0123⟩, 2, ⟨0xFF, by decide⟩, 0x07080000, .new false .any (.vId 0x11)
    (.aesCcm64 #v[0, 0, 0, 0, 0]) (.new 15 15)⟩)
    [0x01, 0x01, 0x23, 0x02, 0xFF, 0x00, 0x00, 0x00, 0x00, 0x00, 0x08, 0x07, 0x36, 0xFF, 0x00, 0x11, 0x00,
    0x00, 0x00, 0x00, 0x00] := by decide +kernel

/-! `/repo/dash7/src/types.rs:176-182` (`test`) -/
example : ∀ cfg ∈ Cfg.all, Passes (Item.toBytes cfg .varInt) (Item.tryFrom cfg .varInt)
    (.default)
    [0x00] := by decide +kernel
example : ∀ cfg ∈ Cfg.all, Passes (Item.toBytes cfg .varInt) (Item.tryFrom cfg .varInt)
    (.newUnchecked 1 false)
    [0x01] := by decide +kernel
example : ∀ cfg ∈ Cfg.all, Passes (Item.toBytes cfg .varInt) (Item.tryFrom cfg .varInt)
    (.newUnchecked 32 false)
    [0x28] := by decide +kernel
example : ∀ cfg ∈ Cfg.all, Passes (Item.toBytes cfg .varInt) (Item.tryFrom cfg .varInt)
    (.newUnchecked 507904 false)
    [0xFF] := by decide +kernel

/-! `/repo/dash7/src/data/mod.rs:91-115` (`test_file_permissions`) -/
example : ∀ cfg ∈ Cfg.all, Passes (Item.toBytes cfg .filePermissions) (Item.tryFrom cfg .filePermissions)
    (⟨true, false, ⟨true, true, true⟩, ⟨false, false, false⟩⟩)
    [0xB8] := by decide +kernel

/-! `/repo/dash7/src/data/mod.rs:117-149` (`test_file_header`) -/
example : ∀ cfg ∈ Cfg.all, Passes (Item.toBytes cfg .fileHeader) (Item.tryFrom cfg .fileHeader)
    (⟨⟨true, false, ⟨true, true, true⟩, ⟨false, false, false⟩⟩, ⟨false, .read, .permanent⟩, 1, 2, 0xDEADBEEF,
    0xBAADFACE⟩)
    [0xB8, 0x13, 0x01, 0x02, 0xDE, 0xAD, 0xBE, 0xEF, 0xBA, 0xAD, 0xFA, 0xCE] := by decide +kernel

/-! `/repo/dash7/src/app/interface.rs:130-160` (`test_dash7_interface_configuration`) -/
example : ∀ cfg ∈ Cfg.all, cfg.variant ≠ .subiot → Passes (Item.toBytes cfg .dash7InterfaceConfiguration) (Item.tryFrom cfg .dash7InterfaceConfiguration)
    (⟨⟨false, false, .no, .any⟩, .ofU32 0x20, .ofU32 0x34, .new false .any (.vId 0xABCD) (.aesCcm32 #v[1, 2, 3,
    4, 5]) (.new 15 15)⟩)
    [0x02, 0x28, 0x2D, 0x37, 0xFF, 0xAB, 0xCD, 0x01, 0x02, 0x03, 0x04, 0x05] := by decide +kernel
example : ∀ cfg ∈ Cfg.all, cfg.variant = .subiot → Passes (Item.toBytes cfg .dash7InterfaceConfiguration) (Item.tryFrom cfg .dash7InterfaceConfiguration)
    (⟨⟨false, false, .no, .any⟩, .ofU32 0x20, .default, .new false .any (.vId 0xABCD) (.aesCcm32 #v[1, 2, 3, 4,
    5]) (.new 15 15)⟩)
    [0x02, 0x28, 0x37, 0xFF, 0xAB, 0xCD, 0x01, 0x02, 0x03, 0x04, 0x05] := by decide +kernel

/-! `/repo/dash7/src/app/interface.rs:162-194` (`test_dash7_interface_configuration_with_address_nbid`) -/
example : ∀ cfg ∈ Cfg.all, cfg.variant = .spec → Passes (Item.toBytes cfg .dash7InterfaceConfiguration) (Item.tryFrom cfg .dash7InterfaceConfiguration)
    (⟨⟨false, false, .no, .any⟩, .ofU32 0x20, .ofU32 0x34, .new false .any (.nbId (.ofU32 0x15)) (.none)
    (.default)⟩)
    [0x02, 0x28, 0x2D, 0x00, 0x00, 0x15] := by decide +kernel
example : ∀ cfg ∈ Cfg.all, cfg.variant = .subiot → Passes (Item.toBytes cfg .dash7InterfaceConfiguration) (Item.tryFrom cfg .dash7InterfaceConfiguration)
    (⟨⟨false, false, .no, .any⟩, .ofU32 0x20, .default, .new false .any (.nbId (.ofU32 0x15)) (.none)
    (.default)⟩)
    [0x02, 0x28, 0x00, 0x00, 0x15] := by decide +kernel
example : ∀ cfg ∈ Cfg.all, cfg.variant = .wizzilab → Passes (Item.toBytes cfg .dash7InterfaceConfiguration) (Item.tryFrom cfg .dash7InterfaceConfiguration)
    (⟨⟨false, false, .no, .any⟩, .ofU32 0x20, .ofU32 0x34, .new true .notEqual (.nbId (.ofU32 0x15)) (.none)
    (.default)⟩)
    [0x02, 0x28, 0x2D, 0x48, 0x00, 0x15] := by decide +kernel

/-! `/repo/dash7/src/app/interface.rs:195-227` (`test_dash7_interface_configuration_with_address_noid`) -/
example : ∀ cfg ∈ Cfg.all, cfg.variant = .spec → Passes (Item.toBytes cfg .dash7InterfaceConfiguration) (Item.tryFrom cfg .dash7InterfaceConfiguration)
    (⟨⟨false, false, .no, .any⟩, .ofU32 0x20, .ofU32 0x34, .new false .any (.noId) (.aesCbcMac128 #v[0xA, 0xB,
    0xC, 0xD, 0xE]) (.new 2 4)⟩)
    [0x02, 0x28, 0x2D, 0x12, 0x24, 0x0A, 0x0B, 0x0C, 0x0D, 0x0E] := by decide +kernel
example : ∀ cfg ∈ Cfg.all, cfg.variant = .subiot → Passes (Item.toBytes cfg .dash7InterfaceConfiguration) (Item.tryFrom cfg .dash7InterfaceConfiguration)
    (⟨⟨false, false, .no, .any⟩, .ofU32 0x20, .default, .new false .any (.noId) (.aesCbcMac128 #v[0xA, 0xB,
    0xC, 0xD, 0xE]) (.new 2 4)⟩)
    [0x02, 0x28, 0x12, 0x24, 0x0A, 0x0B, 0x0C, 0x0D, 0x0E] := by decide +kernel
example : ∀ cfg ∈ Cfg.all, cfg.variant = .wizzilab → Passes (Item.toBytes cfg .dash7InterfaceConfiguration) (Item.tryFrom cfg .dash7InterfaceConfiguration)
    (⟨⟨false, false, .no, .any⟩, .ofU32 0x20, .ofU32 0x34, .new false .equal (.noId) (.aesCbcMac128 #v[0xA,
    0xB, 0xC, 0xD, 0xE]) (.new 2 4)⟩)
    [0x02, 0x28, 0x2D, 0x92, 0x24, 0x0A, 0x0B, 0x0C, 0x0D, 0x0E] := by decide +kernel

/-! `/repo/dash7/src/app/interface.rs:229-261` (`test_dash7_interface_configuration_with_address_uid`) -/
example : ∀ cfg ∈ Cfg.all, cfg.variant = .spec → Passes (Item.toBytes cfg .dash7InterfaceConfiguration) (Item.tryFrom cfg .dash7InterfaceConfiguration)
    (⟨⟨false, false, .no, .any⟩, .ofU32 0x20, .ofU32 0x34, .new false .any (.uId 0x0001020304050607) (.aesCcm64
    #v[0xA1, 0xA2, 0xA3, 0xA4, 0xA5]) (.new 4 8)⟩)
    [0x02, 0x28, 0x2D, 0x26, 0x48, 0x00, 0x01, 0x02, 0x03, 0x04, 0x05, 0x06, 0x07, 0xA1, 0xA2, 0xA3, 0xA4, 0xA5] := by decide +kernel
example : ∀ cfg ∈ Cfg.all, cfg.variant = .subiot → Passes (Item.toBytes cfg .dash7InterfaceConfiguration) (Item.tryFrom cfg .dash7InterfaceConfiguration)
    (⟨⟨false, false, .no, .any⟩, .ofU32 0x20, .default, .new false .any (.uId 0x0001020304050607) (.aesCcm64
    #v[0xA1, 0xA2, 0xA3, 0xA4, 0xA5]) (.new 4 8)⟩)
    [0x02, 0x28, 0x26, 0x48, 0x00, 0x01, 0x02, 0x03, 0x04, 0x05, 0x06, 0x07, 0xA1, 0xA2, 0xA3, 0xA4, 0xA5] := by decide +kernel
example : ∀ cfg ∈ Cfg.all, cfg.variant = .wizzilab → Passes (Item.toBytes cfg .dash7InterfaceConfiguration) (Item.tryFrom cfg .dash7InterfaceConfiguration)
    (⟨⟨false, false, .no, .any⟩, .ofU32 0x20, .ofU32 0x34, .new true .greaterThan (.uId 0x0001020304050607)
    (.aesCcm64 #v[0xA1, 0xA2, 0xA3, 0xA4, 0xA5]) (.new 4 8)⟩)
    [0x02, 0x28, 0x2D, 0xEE, 0x48, 0x00, 0x01, 0x02, 0x03, 0x04, 0x05, 0x06, 0x07, 0xA1, 0xA2, 0xA3, 0xA4, 0xA5] := by decide +kernel

/-! `/repo/dash7/src/app/interface.rs:263-293` (`test_dash7_interface_configuration_with_address_vid`) -/
example : ∀ cfg ∈ Cfg.all, cfg.variant ≠ .subiot → Passes (Item.toBytes cfg .dash7InterfaceConfiguration) (Item.tryFrom cfg .dash7InterfaceConfiguration)
    (⟨⟨false, false, .no, .any⟩, .ofU32 0x20, .ofU32 0x34, .new false .any (.vId 0xABCD) (.aesCcm32 #v[0xA1,
    0xA2, 0xA3, 0xA4, 0xA5]) (.new 15 15)⟩)
    [0x02, 0x28, 0x2D, 0x37, 0xFF, 0xAB, 0xCD, 0xA1, 0xA2, 0xA3, 0xA4, 0xA5] := by decide +kernel
example : ∀ cfg ∈ Cfg.all, cfg.variant = .subiot → Passes (Item.toBytes cfg .dash7InterfaceConfiguration) (Item.tryFrom cfg .dash7InterfaceConfiguration)
    (⟨⟨false, false, .no, .any⟩, .ofU32 0x20, .default, .new false .any (.vId 0xABCD) (.aesCcm32 #v[0xA1, 0xA2,
    0xA3, 0xA4, 0xA5]) (.new 15 15)⟩)
    [0x02, 0x28, 0x37, 0xFF, 0xAB, 0xCD, 0xA1, 0xA2, 0xA3, 0xA4, 0xA5] := by decide +kernel

/-! `/repo/dash7/src/app/command.rs:265-312` (`test_command`) -/
example : ∀ cfg ∈ Cfg.all, Passes (Command.toBytes cfg) (Command.tryFrom cfg)
    (⟨[.requestTag ⟨true, ⟨52⟩, 66⟩, .readFileData ⟨⟨false, true⟩, ⟨1⟩, ⟨0, ⟨0⟩⟩, ⟨8⟩⟩, .readFileData ⟨⟨true,
    false⟩, ⟨1⟩, ⟨4, ⟨2⟩⟩, ⟨3⟩⟩, .nop ⟨⟨true, true⟩, ⟨0⟩⟩]⟩)
    [0xB4, 0x42, 0x41, 0x00, 0x00, 0x08, 0x81, 0x04, 0x02, 0x03, 0xC0] := by decide +kernel

/-! `/repo/dash7/src/app/command.rs:681-752` (`test_command_with_interface_status`) -/
example : ∀ cfg ∈ Cfg.all, Passes (Command.toBytes cfg) (Command.tryFrom cfg)
    (⟨[.status (.ofStatus (.interface (.ofStatus (.dash7 ⟨⟨⟨.band868, .loRate, .fecPn9⟩, 50⟩, 45, 62, 80, true,
    false, false, false, 0, 0, .ofU32 384, .new false .any (.uId 4123107267735781422) .none (.new 0 1)⟩)))),
    .forward (.new false .serial), .writeFileData (.new ⟨false, true⟩ ⟨53, ⟨0⟩⟩ (.other [0x00, 0xF4, 0x01,
    0x00, 0x00, 0x44, 0x48, 0x00, 0x09, 0x00, 0x00, 0x00, 0x00, 0x00, 0x00, 0x30, 0x00, 0x00, 0x44, 0x48, 0x00,
    0x09, 0x00, 0x00, 0x30, 0x00, 0x00, 0x00, 0x00, 0x02, 0x00, 0x44, 0x48, 0x00, 0x09, 0x00, 0x00, 0x70, 0x00,
    0x00, 0x00, 0x30, 0x02, 0x00]) ⟨4⟩)]⟩)
    [0x62, 0xD7, 0x14, 0x32, 0x00, 0x32, 0x2D, 0x3E, 0x50, 0x80, 0x00, 0x00, 0x58, 0x20, 0x01, 0x39, 0x38,
    0x38, 0x37, 0x00, 0x39, 0x00, 0x2E, 0x32, 0x01, 0x44, 0x35, 0x00, 0x2C, 0x00, 0xF4, 0x01, 0x00, 0x00, 0x44,
    0x48, 0x00, 0x09, 0x00, 0x00, 0x00, 0x00, 0x00, 0x00, 0x30, 0x00, 0x00, 0x44, 0x48, 0x00, 0x09, 0x00, 0x00,
    0x30, 0x00, 0x00, 0x00, 0x00, 0x02, 0x00, 0x44, 0x48, 0x00, 0x09, 0x00, 0x00, 0x70, 0x00, 0x00, 0x00, 0x30,
    0x02, 0x00] := by decide +kernel

/-! `/repo/dash7/src/app/action.rs:388-397` (`test_header`): a header with six bits of padding behind it -/

example : (W.seq [ActionHeader.write ⟨true, false⟩, W.pad 6]).toBytes = .ok [0x80] ∧
    derivedTryFrom (P.run (do let h ← ActionHeader.read; P.pad 6; P.pure h)) [0x80] =
      .ok ⟨true, false⟩ := by decide +kernel

/-! `/repo/dash7/src/types.rs:161-165` (`test_is_valid`) -/

example : VarInt.isValid 507904 = true ∧ VarInt.isValid 0x40000000 = false := by decide +kernel

/-! `/repo/dash7/src/types.rs:167-174` (`test_decompress`) -/

example : VarInt.decompress 0 0 = .ok 0 ∧ VarInt.decompress 1 1 = .ok 4 ∧
    VarInt.decompress 2 2 = .ok 32 ∧ VarInt.decompress 3 3 = .ok 192 ∧
    VarInt.decompress 7 31 = .ok 507904 := by decide +kernel

/-! `/repo/dash7/src/data/mod.rs:91-115, 117-149` read with `from_bytes` -/

example : ∀ cfg ∈ Cfg.all, Item.fromBytes cfg .filePermissions ([0xB8], 0) =
    .ok (([], 0), ⟨true, false, ⟨true, true, true⟩, ⟨false, false, false⟩⟩) := by decide +kernel

/-! `/repo/dash7/src/app/command.rs:314-382` (`test_command_request_id`) -/

example : Command.requestId ⟨[.requestTag ⟨true, ⟨52⟩, 66⟩, .nop ⟨⟨true, true⟩, ⟨0⟩⟩]⟩ = some 66 ∧
    Command.requestId ⟨[.nop ⟨⟨true, false⟩, ⟨0⟩⟩, .requestTag ⟨true, ⟨52⟩, 44⟩]⟩ = some 44 ∧
    Command.requestId ⟨[.nop ⟨⟨true, false⟩, ⟨0⟩⟩, .nop ⟨⟨true, false⟩, ⟨0⟩⟩]⟩ = none := by
  decide +kernel

/-! `/repo/dash7/src/app/command.rs:384-454` (`test_command_response_id`) -/

example :
    Command.responseId ⟨[.responseTag ⟨⟨true, true⟩, ⟨35⟩, 66⟩, .nop ⟨⟨true, true⟩, ⟨0⟩⟩]⟩ = some 66 ∧
    Command.responseId ⟨[.nop ⟨⟨true, false⟩, ⟨0⟩⟩, .responseTag ⟨⟨true, true⟩, ⟨35⟩, 44⟩]⟩ = some 44 ∧
    Command.responseId ⟨[.nop ⟨⟨true, false⟩, ⟨0⟩⟩, .nop ⟨⟨true, false⟩, ⟨0⟩⟩]⟩ = none := by
  decide +kernel

/-! `/repo/dash7/src/app/command.rs:456-541` (`test_command_is_last_response`) -/

example :
    Command.isLastResponse ⟨[.responseTag ⟨⟨true, true⟩, ⟨35⟩, 66⟩, .nop ⟨⟨true, true⟩, ⟨0⟩⟩]⟩ = true ∧
    Command.isLastResponse ⟨[.responseTag ⟨⟨false, false⟩, ⟨35⟩, 66⟩, .nop ⟨⟨true, true⟩, ⟨0⟩⟩]⟩ = false ∧
    Command.isLastResponse ⟨[.responseTag ⟨⟨false, true⟩, ⟨35⟩, 44⟩,
      .responseTag ⟨⟨true, true⟩, ⟨35⟩, 44⟩]⟩ = false ∧
    Command.isLastResponse ⟨[.nop ⟨⟨true, false⟩, ⟨0⟩⟩, .nop ⟨⟨true, false⟩, ⟨0⟩⟩]⟩ = false := by
  decide +kernel

/-! `/repo/README.md:68`: the command line given there prints an ALP command of three writes to file 0x48 -/

example : ∀ cfg ∈ Cfg.all, Cli.main cfg (some .alp) none
    "04 48 00 09 00 00 00 00 00 00 30 00 00 04 48 00 09 00 00 30 00 00 00 00 02 00 04 48 00 09 00 00 70 00 00 00 30 02 00"
      = .printed (.command ⟨[
        .writeFileData ⟨⟨false, false⟩, ⟨4⟩, ⟨0x48, ⟨0⟩⟩, .other [0, 0, 0, 0, 0, 0, 0x30, 0, 0]⟩,
        .writeFileData ⟨⟨false, false⟩, ⟨4⟩, ⟨0x48, ⟨0⟩⟩, .other [0, 0, 0x30, 0, 0, 0, 0, 2, 0]⟩,
        .writeFileData ⟨⟨false, false⟩, ⟨4⟩, ⟨0x48, ⟨0⟩⟩, .other [0, 0, 0x70, 0, 0, 0, 0x30, 2, 0]⟩]⟩) := by
  decide +kernel

end Dash7.Vectors
