import Verif.PyCore.Rules
import Verif.Source.Program

/-!
# What the names of the program are bound to

Generated by fidelity/embed.py.
-/

namespace Verif
namespace PyCore
namespace Look

variable [Rounding]

theorem fn_ExceptionBitsError_process : src.fns.lookup n!"ExceptionBitsError.process" = some Src.fn_ExceptionBitsError_process := rfl
theorem fn_Bits_getbitu : src.fns.lookup n!"Bits.getbitu" = some Src.fn_Bits_getbitu := rfl
theorem fn_Bits_getbits : src.fns.lookup n!"Bits.getbits" = some Src.fn_Bits_getbits := rfl
theorem fn_Bits_revbitu : src.fns.lookup n!"Bits.revbitu" = some Src.fn_Bits_revbitu := rfl
theorem fn_Bits_revbits : src.fns.lookup n!"Bits.revbits" = some Src.fn_Bits_revbits := rfl
theorem fn_CRC24Q_calc : src.fns.lookup n!"CRC24Q.calc" = some Src.fn_CRC24Q_calc := rfl
theorem fn_getSubset : src.fns.lookup n!"getSubset" = some Src.fn_getSubset := rfl
theorem fn_LEGT_legacy_subset : src.fns.lookup n!"LEGT.legacy_subset" = some Src.fn_LEGT_legacy_subset := rfl
theorem fn_EPHT_eph_subset : src.fns.lookup n!"EPHT.eph_subset" = some Src.fn_EPHT_eph_subset := rfl
theorem fn_MSMT_rnx_lit : src.fns.lookup n!"MSMT.rnx_lit" = some Src.fn_MSMT_rnx_lit := rfl
theorem fn_MSMT_crr_frq : src.fns.lookup n!"MSMT.crr_frq" = some Src.fn_MSMT_crr_frq := rfl
theorem fn_MSMT_msm_subset : src.fns.lookup n!"MSMT.msm_subset" = some Src.fn_MSMT_msm_subset := rfl
theorem fn_MSMT_unpack_clk_steer : src.fns.lookup n!"MSMT.unpack_clk_steer" = some Src.fn_MSMT_unpack_clk_steer := rfl
theorem fn_MSMT_unpack_clk_ext : src.fns.lookup n!"MSMT.unpack_clk_ext" = some Src.fn_MSMT_unpack_clk_ext := rfl
theorem fn_MSMT_unpack_smth_indc : src.fns.lookup n!"MSMT.unpack_smth_indc" = some Src.fn_MSMT_unpack_smth_indc := rfl
theorem fn_MSMT_unpack_smth_intr : src.fns.lookup n!"MSMT.unpack_smth_intr" = some Src.fn_MSMT_unpack_smth_intr := rfl
theorem fn_MSMT_unpack_tlock10 : src.fns.lookup n!"MSMT.unpack_tlock10" = some Src.fn_MSMT_unpack_tlock10 := rfl
theorem fn_MSMT_unpack_tlock4 : src.fns.lookup n!"MSMT.unpack_tlock4" = some Src.fn_MSMT_unpack_tlock4 := rfl
theorem fn_MSMT_isDF405_OK : src.fns.lookup n!"MSMT.isDF405_OK" = some Src.fn_MSMT_isDF405_OK := rfl
theorem fn_MSMT_isDF406_OK : src.fns.lookup n!"MSMT.isDF406_OK" = some Src.fn_MSMT_isDF406_OK := rfl
theorem fn_MSMT_isDF400_OK : src.fns.lookup n!"MSMT.isDF400_OK" = some Src.fn_MSMT_isDF400_OK := rfl
theorem fn_MSMT_isDF401_OK : src.fns.lookup n!"MSMT.isDF401_OK" = some Src.fn_MSMT_isDF401_OK := rfl
theorem fn_MSMT_isDF404_OK : src.fns.lookup n!"MSMT.isDF404_OK" = some Src.fn_MSMT_isDF404_OK := rfl
theorem fn_DataClassMethods_items : src.fns.lookup n!"DataClassMethods.items" = some Src.fn_DataClassMethods_items := rfl
theorem fn_DataClassMethods_copy : src.fns.lookup n!"DataClassMethods.copy" = some Src.fn_DataClassMethods_copy := rfl
theorem fn_DataClassMethods_deepcopy : src.fns.lookup n!"DataClassMethods.deepcopy" = some Src.fn_DataClassMethods_deepcopy := rfl
theorem fn_BaseGLBS_P_post_init_P : src.fns.lookup n!"BaseGLBS.__post_init__" = some Src.fn_BaseGLBS_P_post_init_P := rfl
theorem fn_ObservablesMSM_P_init_P : src.fns.lookup n!"ObservablesMSM.__init__" = some Src.fn_ObservablesMSM_P_init_P := rfl
theorem fn_Attributes_P_init_P : src.fns.lookup n!"Attributes.__init__" = some Src.fn_Attributes_P_init_P := rfl
theorem fn_Attributes_clear : src.fns.lookup n!"Attributes.clear" = some Src.fn_Attributes_clear := rfl
theorem fn_Attributes_is_msm7 : src.fns.lookup n!"Attributes.is_msm7" = some Src.fn_Attributes_is_msm7 := rfl
theorem fn_Attributes_is_msm6 : src.fns.lookup n!"Attributes.is_msm6" = some Src.fn_Attributes_is_msm6 := rfl
theorem fn_Attributes_is_msm5 : src.fns.lookup n!"Attributes.is_msm5" = some Src.fn_Attributes_is_msm5 := rfl
theorem fn_Attributes_is_msm4 : src.fns.lookup n!"Attributes.is_msm4" = some Src.fn_Attributes_is_msm4 := rfl
theorem fn_Attributes_is_msm3 : src.fns.lookup n!"Attributes.is_msm3" = some Src.fn_Attributes_is_msm3 := rfl
theorem fn_Attributes_is_msm2 : src.fns.lookup n!"Attributes.is_msm2" = some Src.fn_Attributes_is_msm2 := rfl
theorem fn_Attributes_is_msm1 : src.fns.lookup n!"Attributes.is_msm1" = some Src.fn_Attributes_is_msm1 := rfl
theorem fn_ObservablesHdrMSM_P_init_P : src.fns.lookup n!"_ObservablesHdrMSM.__init__" = some Src.fn_ObservablesHdrMSM_P_init_P := rfl
theorem fn_ObservablesObs_P_init_P : src.fns.lookup n!"_ObservablesObs.__init__" = some Src.fn_ObservablesObs_P_init_P := rfl
theorem fn_ObservablesAuxMSM_P_init_P : src.fns.lookup n!"_ObservablesAuxMSM.__init__" = some Src.fn_ObservablesAuxMSM_P_init_P := rfl
theorem fn_ObservablesAuxLeg_P_init_P : src.fns.lookup n!"_ObservablesAuxLeg.__init__" = some Src.fn_ObservablesAuxLeg_P_init_P := rfl
theorem fn_BareObservablesHdrMSM_P_init_P : src.fns.lookup n!"_BareObservablesHdrMSM.__init__" = some Src.fn_BareObservablesHdrMSM_P_init_P := rfl
theorem fn_BareObservablesHdrMSM_clear : src.fns.lookup n!"_BareObservablesHdrMSM.clear" = some Src.fn_BareObservablesHdrMSM_clear := rfl
theorem fn_BareObservablesSatDataMSM4567_P_init_P : src.fns.lookup n!"_BareObservablesSatDataMSM4567.__init__" = some Src.fn_BareObservablesSatDataMSM4567_P_init_P := rfl
theorem fn_BareObservablesSatDataMSM4567_clear : src.fns.lookup n!"_BareObservablesSatDataMSM4567.clear" = some Src.fn_BareObservablesSatDataMSM4567_clear := rfl
theorem fn_BareObservablesSignalDataMSM4567_P_init_P : src.fns.lookup n!"_BareObservablesSignalDataMSM4567.__init__" = some Src.fn_BareObservablesSignalDataMSM4567_P_init_P := rfl
theorem fn_BareObservablesSignalDataMSM4567_clear : src.fns.lookup n!"_BareObservablesSignalDataMSM4567.clear" = some Src.fn_BareObservablesSignalDataMSM4567_clear := rfl
theorem fn_BareObservablesMSM4567_P_init_P : src.fns.lookup n!"BareObservablesMSM4567.__init__" = some Src.fn_BareObservablesMSM4567_P_init_P := rfl
theorem fn_BareObservablesMSM4567_clear : src.fns.lookup n!"BareObservablesMSM4567.clear" = some Src.fn_BareObservablesMSM4567_clear := rfl
theorem fn_BareObservablesMSM4567_time : src.fns.lookup n!"BareObservablesMSM4567.time" = some Src.fn_BareObservablesMSM4567_time := rfl
theorem fn_BareObservablesMSM4567_day : src.fns.lookup n!"BareObservablesMSM4567.day" = some Src.fn_BareObservablesMSM4567_day := rfl
theorem fn_BareObservablesSatDataMSM123_P_init_P : src.fns.lookup n!"_BareObservablesSatDataMSM123.__init__" = some Src.fn_BareObservablesSatDataMSM123_P_init_P := rfl
theorem fn_BareObservablesSatDataMSM123_clear : src.fns.lookup n!"_BareObservablesSatDataMSM123.clear" = some Src.fn_BareObservablesSatDataMSM123_clear := rfl
theorem fn_BareObservablesSignalDataMSM123_P_init_P : src.fns.lookup n!"_BareObservablesSignalDataMSM123.__init__" = some Src.fn_BareObservablesSignalDataMSM123_P_init_P := rfl
theorem fn_BareObservablesSignalDataMSM123_clear : src.fns.lookup n!"_BareObservablesSignalDataMSM123.clear" = some Src.fn_BareObservablesSignalDataMSM123_clear := rfl
theorem fn_BareObservablesMSM123_P_init_P : src.fns.lookup n!"BareObservablesMSM123.__init__" = some Src.fn_BareObservablesMSM123_P_init_P := rfl
theorem fn_BareObservablesMSM123_clear : src.fns.lookup n!"BareObservablesMSM123.clear" = some Src.fn_BareObservablesMSM123_clear := rfl
theorem fn_BareObservablesMSM123_time : src.fns.lookup n!"BareObservablesMSM123.time" = some Src.fn_BareObservablesMSM123_time := rfl
theorem fn_BareObservablesMSM123_day : src.fns.lookup n!"BareObservablesMSM123.day" = some Src.fn_BareObservablesMSM123_day := rfl
theorem fn_EphemerisDecoder_P_init_P : src.fns.lookup n!"EphemerisDecoder.__init__" = some Src.fn_EphemerisDecoder_P_init_P := rfl
theorem fn_EphemerisDecoder_get_msg_num : src.fns.lookup n!"EphemerisDecoder.get_msg_num" = some Src.fn_EphemerisDecoder_get_msg_num := rfl
theorem fn_EphemerisDecoder_P_length_check : src.fns.lookup n!"EphemerisDecoder.__length_check" = some Src.fn_EphemerisDecoder_P_length_check := rfl
theorem fn_EphemerisDecoder_P_decode1019 : src.fns.lookup n!"EphemerisDecoder.__decode1019" = some Src.fn_EphemerisDecoder_P_decode1019 := rfl
theorem fn_EphemerisDecoder_P_scale1019_ura : src.fns.lookup n!"EphemerisDecoder.__scale1019.ura" = some Src.fn_EphemerisDecoder_P_scale1019_ura := rfl
theorem fn_EphemerisDecoder_P_scale1019 : src.fns.lookup n!"EphemerisDecoder.__scale1019" = some Src.fn_EphemerisDecoder_P_scale1019 := rfl
theorem fn_EphemerisDecoder_getbitS : src.fns.lookup n!"EphemerisDecoder.getbitS" = some Src.fn_EphemerisDecoder_getbitS := rfl
theorem fn_EphemerisDecoder_P_decode1020 : src.fns.lookup n!"EphemerisDecoder.__decode1020" = some Src.fn_EphemerisDecoder_P_decode1020 := rfl
theorem fn_EphemerisDecoder_P_scale1020 : src.fns.lookup n!"EphemerisDecoder.__scale1020" = some Src.fn_EphemerisDecoder_P_scale1020 := rfl
theorem fn_EphemerisDecoder_P_decode1041 : src.fns.lookup n!"EphemerisDecoder.__decode1041" = some Src.fn_EphemerisDecoder_P_decode1041 := rfl
theorem fn_EphemerisDecoder_P_scale1041 : src.fns.lookup n!"EphemerisDecoder.__scale1041" = some Src.fn_EphemerisDecoder_P_scale1041 := rfl
theorem fn_EphemerisDecoder_P_decode1042 : src.fns.lookup n!"EphemerisDecoder.__decode1042" = some Src.fn_EphemerisDecoder_P_decode1042 := rfl
theorem fn_EphemerisDecoder_P_scale1042 : src.fns.lookup n!"EphemerisDecoder.__scale1042" = some Src.fn_EphemerisDecoder_P_scale1042 := rfl
theorem fn_EphemerisDecoder_P_decode1046 : src.fns.lookup n!"EphemerisDecoder.__decode1046" = some Src.fn_EphemerisDecoder_P_decode1046 := rfl
theorem fn_EphemerisDecoder_P_scale1046 : src.fns.lookup n!"EphemerisDecoder.__scale1046" = some Src.fn_EphemerisDecoder_P_scale1046 := rfl
theorem fn_EphemerisDecoder_P_decode1045 : src.fns.lookup n!"EphemerisDecoder.__decode1045" = some Src.fn_EphemerisDecoder_P_decode1045 := rfl
theorem fn_EphemerisDecoder_P_scale1045 : src.fns.lookup n!"EphemerisDecoder.__scale1045" = some Src.fn_EphemerisDecoder_P_scale1045 := rfl
theorem fn_EphemerisDecoder_P_decode1044 : src.fns.lookup n!"EphemerisDecoder.__decode1044" = some Src.fn_EphemerisDecoder_P_decode1044 := rfl
theorem fn_EphemerisDecoder_P_scale1044 : src.fns.lookup n!"EphemerisDecoder.__scale1044" = some Src.fn_EphemerisDecoder_P_scale1044 := rfl
theorem fn_EphemerisDecoder_P_decode : src.fns.lookup n!"EphemerisDecoder.__decode" = some Src.fn_EphemerisDecoder_P_decode := rfl
theorem fn_EphemerisDecoder_scale : src.fns.lookup n!"EphemerisDecoder.scale" = some Src.fn_EphemerisDecoder_scale := rfl
theorem fn_EphemerisDecoder_decode : src.fns.lookup n!"EphemerisDecoder.decode" = some Src.fn_EphemerisDecoder_decode := rfl
theorem fn_SubdecoderEph_P_init_P : src.fns.lookup n!"SubdecoderEph.__init__" = some Src.fn_SubdecoderEph_P_init_P := rfl
theorem fn_SubdecoderEph_decode : src.fns.lookup n!"SubdecoderEph.decode" = some Src.fn_SubdecoderEph_decode := rfl
theorem fn_BaseStationDataDecoder_P_init_P : src.fns.lookup n!"BaseStationDataDecoder.__init__" = some Src.fn_BaseStationDataDecoder_P_init_P := rfl
theorem fn_BaseStationDataDecoder_get_msg_num : src.fns.lookup n!"BaseStationDataDecoder.get_msg_num" = some Src.fn_BaseStationDataDecoder_get_msg_num := rfl
theorem fn_BaseStationDataDecoder_P_length_check : src.fns.lookup n!"BaseStationDataDecoder.__length_check" = some Src.fn_BaseStationDataDecoder_P_length_check := rfl
theorem fn_BaseStationDataDecoder_P_decode10056 : src.fns.lookup n!"BaseStationDataDecoder.__decode10056" = some Src.fn_BaseStationDataDecoder_P_decode10056 := rfl
theorem fn_BaseStationDataDecoder_P_scale10056 : src.fns.lookup n!"BaseStationDataDecoder.__scale10056" = some Src.fn_BaseStationDataDecoder_P_scale10056 := rfl
theorem fn_BaseStationDataDecoder_P_decode10078_1033 : src.fns.lookup n!"BaseStationDataDecoder.__decode10078_1033" = some Src.fn_BaseStationDataDecoder_P_decode10078_1033 := rfl
theorem fn_BaseStationDataDecoder_P_scale10078_1033 : src.fns.lookup n!"BaseStationDataDecoder.__scale10078_1033" = some Src.fn_BaseStationDataDecoder_P_scale10078_1033 := rfl
theorem fn_BaseStationDataDecoder_P_decode1013 : src.fns.lookup n!"BaseStationDataDecoder.__decode1013" = some Src.fn_BaseStationDataDecoder_P_decode1013 := rfl
theorem fn_BaseStationDataDecoder_P_scale1013 : src.fns.lookup n!"BaseStationDataDecoder.__scale1013" = some Src.fn_BaseStationDataDecoder_P_scale1013 := rfl
theorem fn_BaseStationDataDecoder_P_decode1029 : src.fns.lookup n!"BaseStationDataDecoder.__decode1029" = some Src.fn_BaseStationDataDecoder_P_decode1029 := rfl
theorem fn_BaseStationDataDecoder_P_scale1029 : src.fns.lookup n!"BaseStationDataDecoder.__scale1029" = some Src.fn_BaseStationDataDecoder_P_scale1029 := rfl
theorem fn_BaseStationDataDecoder_P_decode1230 : src.fns.lookup n!"BaseStationDataDecoder.__decode1230" = some Src.fn_BaseStationDataDecoder_P_decode1230 := rfl
theorem fn_BaseStationDataDecoder_P_scale1230 : src.fns.lookup n!"BaseStationDataDecoder.__scale1230" = some Src.fn_BaseStationDataDecoder_P_scale1230 := rfl
theorem fn_BaseStationDataDecoder_P_decode : src.fns.lookup n!"BaseStationDataDecoder.__decode" = some Src.fn_BaseStationDataDecoder_P_decode := rfl
theorem fn_BaseStationDataDecoder_scale : src.fns.lookup n!"BaseStationDataDecoder.scale" = some Src.fn_BaseStationDataDecoder_scale := rfl
theorem fn_BaseStationDataDecoder_decode : src.fns.lookup n!"BaseStationDataDecoder.decode" = some Src.fn_BaseStationDataDecoder_decode := rfl
theorem fn_SubdecoderBaseStationData_P_init_P : src.fns.lookup n!"SubdecoderBaseStationData.__init__" = some Src.fn_SubdecoderBaseStationData_P_init_P := rfl
theorem fn_SubdecoderBaseStationData_decode : src.fns.lookup n!"SubdecoderBaseStationData.decode" = some Src.fn_SubdecoderBaseStationData_decode := rfl
theorem fn_BareObservablesMSM17Decoder_P_init_P : src.fns.lookup n!"BareObservablesMSM17Decoder.__init__" = some Src.fn_BareObservablesMSM17Decoder_P_init_P := rfl
theorem fn_BareObservablesMSM17Decoder_ready : src.fns.lookup n!"BareObservablesMSM17Decoder.ready" = some Src.fn_BareObservablesMSM17Decoder_ready := rfl
theorem fn_BareObservablesMSM17Decoder_bare_data : src.fns.lookup n!"BareObservablesMSM17Decoder.bare_data" = some Src.fn_BareObservablesMSM17Decoder_bare_data := rfl
theorem fn_BareObservablesMSM17Decoder_decode : src.fns.lookup n!"BareObservablesMSM17Decoder.decode" = some Src.fn_BareObservablesMSM17Decoder_decode := rfl
theorem fn_BareObservablesMSM17Decoder_get_msg_num_undecorated : src.fns.lookup n!"BareObservablesMSM17Decoder.get_msg_num$undecorated" = some Src.fn_BareObservablesMSM17Decoder_get_msg_num_undecorated := rfl
theorem fn_BareObservablesMSM17Decoder_get_msg_num : src.fns.lookup n!"BareObservablesMSM17Decoder.get_msg_num" = some Src.fn_BareObservablesMSM17Decoder_get_msg_num := rfl
theorem fn_BareObservablesMSM17Decoder_P_extract_hdr : src.fns.lookup n!"BareObservablesMSM17Decoder.__extract_hdr" = some Src.fn_BareObservablesMSM17Decoder_P_extract_hdr := rfl
theorem fn_BareObservablesMSM17Decoder_P_extract_observables4567 : src.fns.lookup n!"BareObservablesMSM17Decoder.__extract_observables4567" = some Src.fn_BareObservablesMSM17Decoder_P_extract_observables4567 := rfl
theorem fn_BareObservablesMSM17Decoder_P_extract_observables123 : src.fns.lookup n!"BareObservablesMSM17Decoder.__extract_observables123" = some Src.fn_BareObservablesMSM17Decoder_P_extract_observables123 := rfl
theorem fn_Bare2Scaled_P_init_P : src.fns.lookup n!"Bare2Scaled.__init__" = some Src.fn_Bare2Scaled_P_init_P := rfl
theorem fn_Bare2Scaled_convert : src.fns.lookup n!"Bare2Scaled.convert" = some Src.fn_Bare2Scaled_convert := rfl
theorem fn_Bare2Scaled_convert_obs47 : src.fns.lookup n!"Bare2Scaled._convert_obs47" = some Src.fn_Bare2Scaled_convert_obs47 := rfl
theorem fn_Bare2Scaled_convert_obs13 : src.fns.lookup n!"Bare2Scaled._convert_obs13" = some Src.fn_Bare2Scaled_convert_obs13 := rfl
theorem fn_decode_msm17 : src.fns.lookup n!"decode_msm17" = some Src.fn_decode_msm17 := rfl
theorem fn_SubdecoderMSM4567_P_init_P : src.fns.lookup n!"SubdecoderMSM4567.__init__" = some Src.fn_SubdecoderMSM4567_P_init_P := rfl
theorem fn_SubdecoderMSM4567_decode : src.fns.lookup n!"SubdecoderMSM4567.decode" = some Src.fn_SubdecoderMSM4567_decode := rfl
theorem fn_SubdecoderMSM123_P_init_P : src.fns.lookup n!"SubdecoderMSM123.__init__" = some Src.fn_SubdecoderMSM123_P_init_P := rfl
theorem fn_SubdecoderMSM123_decode : src.fns.lookup n!"SubdecoderMSM123.decode" = some Src.fn_SubdecoderMSM123_decode := rfl
theorem fn_SubDecoderInterface_P_make_MSM47O_spec : src.fns.lookup n!"SubDecoderInterface.__make_MSM47O_spec" = some Src.fn_SubDecoderInterface_P_make_MSM47O_spec := rfl
theorem fn_SubDecoderInterface_P_make_MSM13O_spec : src.fns.lookup n!"SubDecoderInterface.__make_MSM13O_spec" = some Src.fn_SubDecoderInterface_P_make_MSM13O_spec := rfl
theorem fn_SubDecoderInterface_P_make_EPH_spec : src.fns.lookup n!"SubDecoderInterface.__make_EPH_spec" = some Src.fn_SubDecoderInterface_P_make_EPH_spec := rfl
theorem fn_SubDecoderInterface_P_make_BASE_spec : src.fns.lookup n!"SubDecoderInterface.__make_BASE_spec" = some Src.fn_SubDecoderInterface_P_make_BASE_spec := rfl
theorem fn_SubDecoderInterface_P_make_LEGO_spec : src.fns.lookup n!"SubDecoderInterface.__make_LEGO_spec" = some Src.fn_SubDecoderInterface_P_make_LEGO_spec := rfl
theorem fn_SubDecoderInterface_default_decode : src.fns.lookup n!"SubDecoderInterface.default_decode" = some Src.fn_SubDecoderInterface_default_decode := rfl
theorem fn_SubDecoderInterface_P_init_P : src.fns.lookup n!"SubDecoderInterface.__init__" = some Src.fn_SubDecoderInterface_P_init_P := rfl
theorem fn_DecoderTop_P_init_P : src.fns.lookup n!"DecoderTop.__init__" = some Src.fn_DecoderTop_P_init_P := rfl
theorem fn_DecoderTop_register_decoder : src.fns.lookup n!"DecoderTop.register_decoder" = some Src.fn_DecoderTop_register_decoder := rfl
theorem fn_DecoderTop_decode_undecorated : src.fns.lookup n!"DecoderTop.decode$undecorated" = some Src.fn_DecoderTop_decode_undecorated := rfl
theorem fn_DecoderTop_decode : src.fns.lookup n!"DecoderTop.decode" = some Src.fn_DecoderTop_decode := rfl
theorem fn_DecoderTop_catch_message : src.fns.lookup n!"DecoderTop.catch_message" = some Src.fn_DecoderTop_catch_message := rfl
theorem fn_DecoderTop_P_rebase_to_D3 : src.fns.lookup n!"DecoderTop.__rebase_to_D3" = some Src.fn_DecoderTop_P_rebase_to_D3 := rfl
theorem fn_DecoderTop_parse_errors : src.fns.lookup n!"DecoderTop.parse_errors" = some Src.fn_DecoderTop_parse_errors := rfl
theorem fn_DecoderTop_dec_errors : src.fns.lookup n!"DecoderTop.dec_errors" = some Src.fn_DecoderTop_dec_errors := rfl
theorem fn_DecoderTop_dec_attempts : src.fns.lookup n!"DecoderTop.dec_attempts" = some Src.fn_DecoderTop_dec_attempts := rfl
theorem fn_DecoderTop_mnum_undecorated : src.fns.lookup n!"DecoderTop.mnum$undecorated" = some Src.fn_DecoderTop_mnum_undecorated := rfl
theorem fn_DecoderTop_mnum : src.fns.lookup n!"DecoderTop.mnum" = some Src.fn_DecoderTop_mnum := rfl
theorem fn_DecoderTop_mlen_undecorated : src.fns.lookup n!"DecoderTop.mlen$undecorated" = some Src.fn_DecoderTop_mlen_undecorated := rfl
theorem fn_DecoderTop_mlen : src.fns.lookup n!"DecoderTop.mlen" = some Src.fn_DecoderTop_mlen := rfl
theorem fn_DecoderTop_mcrc_undecorated : src.fns.lookup n!"DecoderTop.mcrc$undecorated" = some Src.fn_DecoderTop_mcrc_undecorated := rfl
theorem fn_DecoderTop_mcrc : src.fns.lookup n!"DecoderTop.mcrc" = some Src.fn_DecoderTop_mcrc := rfl
theorem fn_JSONControls_P_init_P : src.fns.lookup n!"JSONControls.__init__" = some Src.fn_JSONControls_P_init_P := rfl
theorem fn_JSONCore_P_init_P : src.fns.lookup n!"JSONCore.__init__" = some Src.fn_JSONCore_P_init_P := rfl
theorem fn_JSONCore_ObservablesMSMtoPrintBuffer : src.fns.lookup n!"JSONCore.ObservablesMSMtoPrintBuffer" = some Src.fn_JSONCore_ObservablesMSMtoPrintBuffer := rfl
theorem fn_JSONCore_BareObservablesMSMtoPrintBuffer : src.fns.lookup n!"JSONCore.BareObservablesMSMtoPrintBuffer" = some Src.fn_JSONCore_BareObservablesMSMtoPrintBuffer := rfl
theorem fn_JSONCore_dataClassToPrintBuffer : src.fns.lookup n!"JSONCore.dataClassToPrintBuffer" = some Src.fn_JSONCore_dataClassToPrintBuffer := rfl
theorem fn_MargoControls_P_init_P : src.fns.lookup n!"MargoControls.__init__" = some Src.fn_MargoControls_P_init_P := rfl
theorem fn_MargoCore_P_init_P : src.fns.lookup n!"MargoCore.__init__" = some Src.fn_MargoCore_P_init_P := rfl
theorem fn_MargoCore_literals : src.fns.lookup n!"MargoCore.literals" = some Src.fn_MargoCore_literals := rfl
theorem fn_MargoCore_utc_shift : src.fns.lookup n!"MargoCore.utc_shift" = some Src.fn_MargoCore_utc_shift := rfl
theorem fn_MargoCore_HC_EN : src.fns.lookup n!"MargoCore.HC_EN" = some Src.fn_MargoCore_HC_EN := rfl
theorem fn_MargoCore_LT_EN : src.fns.lookup n!"MargoCore.LT_EN" = some Src.fn_MargoCore_LT_EN := rfl
theorem fn_MargoCore_DIRNAME : src.fns.lookup n!"MargoCore.DIRNAME" = some Src.fn_MargoCore_DIRNAME := rfl
theorem fn_MargoCore_GNSSTUPLE : src.fns.lookup n!"MargoCore.GNSSTUPLE" = some Src.fn_MargoCore_GNSSTUPLE := rfl
theorem fn_MargoCore_FORMAT : src.fns.lookup n!"MargoCore.FORMAT" = some Src.fn_MargoCore_FORMAT := rfl
theorem fn_MargoCore_MARGO_FILE_ID : src.fns.lookup n!"MargoCore.MARGO_FILE_ID" = some Src.fn_MargoCore_MARGO_FILE_ID := rfl
theorem fn_MargoCore_MAX_SATS : src.fns.lookup n!"MargoCore.MAX_SATS" = some Src.fn_MargoCore_MAX_SATS := rfl
theorem fn_MargoCore_make_obs_file_name : src.fns.lookup n!"MargoCore.make_obs_file_name" = some Src.fn_MargoCore_make_obs_file_name := rfl
theorem fn_MargoCore_conv_to_gps_time : src.fns.lookup n!"MargoCore.conv_to_gps_time" = some Src.fn_MargoCore_conv_to_gps_time := rfl
theorem fn_MargoCore_make_crr_frq : src.fns.lookup n!"MargoCore.make_crr_frq" = some Src.fn_MargoCore_make_crr_frq := rfl
theorem fn_MargoCore_make_lambdas : src.fns.lookup n!"MargoCore.make_lambdas" = some Src.fn_MargoCore_make_lambdas := rfl
theorem fn_MargoCore_ObservablesMSMtoPrintBuffer : src.fns.lookup n!"MargoCore.ObservablesMSMtoPrintBuffer" = some Src.fn_MargoCore_ObservablesMSMtoPrintBuffer := rfl
theorem cls_ExceptionBitsError : src.classes.lookup n!"ExceptionBitsError" = some Src.cls_ExceptionBitsError := rfl
theorem cls_Bits : src.classes.lookup n!"Bits" = some Src.cls_Bits := rfl
theorem cls_CRC24Q : src.classes.lookup n!"CRC24Q" = some Src.cls_CRC24Q := rfl
theorem cls_LEGT : src.classes.lookup n!"LEGT" = some Src.cls_LEGT := rfl
theorem cls_EPHT : src.classes.lookup n!"EPHT" = some Src.cls_EPHT := rfl
theorem cls_MSMT : src.classes.lookup n!"MSMT" = some Src.cls_MSMT := rfl
theorem cls_DataClassMethods : src.classes.lookup n!"DataClassMethods" = some Src.cls_DataClassMethods := rfl
theorem cls_EphHdr : src.classes.lookup n!"EphHdr" = some Src.cls_EphHdr := rfl
theorem cls_ClockBias : src.classes.lookup n!"ClockBias" = some Src.cls_ClockBias := rfl
theorem cls_Keplerians : src.classes.lookup n!"Keplerians" = some Src.cls_Keplerians := rfl
theorem cls_EphGALF : src.classes.lookup n!"EphGALF" = some Src.cls_EphGALF := rfl
theorem cls_EphGALI : src.classes.lookup n!"EphGALI" = some Src.cls_EphGALI := rfl
theorem cls_EphQZS : src.classes.lookup n!"EphQZS" = some Src.cls_EphQZS := rfl
theorem cls_EphBDS : src.classes.lookup n!"EphBDS" = some Src.cls_EphBDS := rfl
theorem cls_EphGPS : src.classes.lookup n!"EphGPS" = some Src.cls_EphGPS := rfl
theorem cls_EphNAVIC : src.classes.lookup n!"EphNAVIC" = some Src.cls_EphNAVIC := rfl
theorem cls_EphGLO : src.classes.lookup n!"EphGLO" = some Src.cls_EphGLO := rfl
theorem cls_BaseRP : src.classes.lookup n!"BaseRP" = some Src.cls_BaseRP := rfl
theorem cls_BaseRPH : src.classes.lookup n!"BaseRPH" = some Src.cls_BaseRPH := rfl
theorem cls_BaseAD : src.classes.lookup n!"BaseAD" = some Src.cls_BaseAD := rfl
theorem cls_BaseADSN : src.classes.lookup n!"BaseADSN" = some Src.cls_BaseADSN := rfl
theorem cls_BaseADSNRC : src.classes.lookup n!"BaseADSNRC" = some Src.cls_BaseADSNRC := rfl
theorem cls_BaseSPitem : src.classes.lookup n!"BaseSPitem" = some Src.cls_BaseSPitem := rfl
theorem cls_BaseSP : src.classes.lookup n!"BaseSP" = some Src.cls_BaseSP := rfl
theorem cls_BaseTS : src.classes.lookup n!"BaseTS" = some Src.cls_BaseTS := rfl
theorem cls_BaseGLBS : src.classes.lookup n!"BaseGLBS" = some Src.cls_BaseGLBS := rfl
theorem cls_ObservablesMSM : src.classes.lookup n!"ObservablesMSM" = some Src.cls_ObservablesMSM := rfl
theorem cls_Attributes : src.classes.lookup n!"Attributes" = some Src.cls_Attributes := rfl
theorem cls_ObservablesHdrMSM : src.classes.lookup n!"_ObservablesHdrMSM" = some Src.cls_ObservablesHdrMSM := rfl
theorem cls_ObservablesObs : src.classes.lookup n!"_ObservablesObs" = some Src.cls_ObservablesObs := rfl
theorem cls_ObservablesAuxMSM : src.classes.lookup n!"_ObservablesAuxMSM" = some Src.cls_ObservablesAuxMSM := rfl
theorem cls_ObservablesAuxLeg : src.classes.lookup n!"_ObservablesAuxLeg" = some Src.cls_ObservablesAuxLeg := rfl
theorem cls_BareObservablesHdrMSM : src.classes.lookup n!"_BareObservablesHdrMSM" = some Src.cls_BareObservablesHdrMSM := rfl
theorem cls_BareObservablesSatDataMSM4567 : src.classes.lookup n!"_BareObservablesSatDataMSM4567" = some Src.cls_BareObservablesSatDataMSM4567 := rfl
theorem cls_BareObservablesSignalDataMSM4567 : src.classes.lookup n!"_BareObservablesSignalDataMSM4567" = some Src.cls_BareObservablesSignalDataMSM4567 := rfl
theorem cls_BareObservablesMSM4567 : src.classes.lookup n!"BareObservablesMSM4567" = some Src.cls_BareObservablesMSM4567 := rfl
theorem cls_BareObservablesSatDataMSM123 : src.classes.lookup n!"_BareObservablesSatDataMSM123" = some Src.cls_BareObservablesSatDataMSM123 := rfl
theorem cls_BareObservablesSignalDataMSM123 : src.classes.lookup n!"_BareObservablesSignalDataMSM123" = some Src.cls_BareObservablesSignalDataMSM123 := rfl
theorem cls_BareObservablesMSM123 : src.classes.lookup n!"BareObservablesMSM123" = some Src.cls_BareObservablesMSM123 := rfl
theorem cls_ExceptionEphemerisDecoder : src.classes.lookup n!"ExceptionEphemerisDecoder" = some Src.cls_ExceptionEphemerisDecoder := rfl
theorem cls_EphemerisDecoder : src.classes.lookup n!"EphemerisDecoder" = some Src.cls_EphemerisDecoder := rfl
theorem cls_SubdecoderEph : src.classes.lookup n!"SubdecoderEph" = some Src.cls_SubdecoderEph := rfl
theorem cls_ExceptionBaseStationDataDecoder : src.classes.lookup n!"ExceptionBaseStationDataDecoder" = some Src.cls_ExceptionBaseStationDataDecoder := rfl
theorem cls_BaseStationDataDecoder : src.classes.lookup n!"BaseStationDataDecoder" = some Src.cls_BaseStationDataDecoder := rfl
theorem cls_SubdecoderBaseStationData : src.classes.lookup n!"SubdecoderBaseStationData" = some Src.cls_SubdecoderBaseStationData := rfl
theorem cls_ExceptionBareDataStructure : src.classes.lookup n!"ExceptionBareDataStructure" = some Src.cls_ExceptionBareDataStructure := rfl
theorem cls_BareObservablesMSM17Decoder : src.classes.lookup n!"BareObservablesMSM17Decoder" = some Src.cls_BareObservablesMSM17Decoder := rfl
theorem cls_Bare2Scaled : src.classes.lookup n!"Bare2Scaled" = some Src.cls_Bare2Scaled := rfl
theorem cls_SubdecoderMSM4567 : src.classes.lookup n!"SubdecoderMSM4567" = some Src.cls_SubdecoderMSM4567 := rfl
theorem cls_SubdecoderMSM123 : src.classes.lookup n!"SubdecoderMSM123" = some Src.cls_SubdecoderMSM123 := rfl
theorem cls_SubDecoderInterface : src.classes.lookup n!"SubDecoderInterface" = some Src.cls_SubDecoderInterface := rfl
theorem cls_ExceptionDecoderDecode : src.classes.lookup n!"ExceptionDecoderDecode" = some Src.cls_ExceptionDecoderDecode := rfl
theorem cls_DecoderTop : src.classes.lookup n!"DecoderTop" = some Src.cls_DecoderTop := rfl
theorem cls_JSONControls : src.classes.lookup n!"JSONControls" = some Src.cls_JSONControls := rfl
theorem cls_JSONCore : src.classes.lookup n!"JSONCore" = some Src.cls_JSONCore := rfl
theorem cls_MargoControls : src.classes.lookup n!"MargoControls" = some Src.cls_MargoControls := rfl
theorem cls_MargoCore : src.classes.lookup n!"MargoCore" = some Src.cls_MargoCore := rfl
theorem lib_AssertionError : src.classes.lookup n!"AssertionError" =
    some { mro := [n!"AssertionError"], members := [], fields := [], isData := false, isExc := true } := rfl
theorem lib_NotImplementedError : src.classes.lookup n!"NotImplementedError" =
    some { mro := [n!"NotImplementedError"], members := [], fields := [], isData := false, isExc := true } := rfl
@[pyrun] theorem glob_int : src.globals.lookup n!"int" = some (.builtin n!"int") := rfl
@[pyrun] theorem glob_str : src.globals.lookup n!"str" = some (.builtin n!"str") := rfl
@[pyrun] theorem glob_float : src.globals.lookup n!"float" = some (.builtin n!"float") := rfl
@[pyrun] theorem glob_len : src.globals.lookup n!"len" = some (.builtin n!"len") := rfl
@[pyrun] theorem glob_range : src.globals.lookup n!"range" = some (.builtin n!"range") := rfl
@[pyrun] theorem glob_tuple : src.globals.lookup n!"tuple" = some (.builtin n!"tuple") := rfl
@[pyrun] theorem glob_hex : src.globals.lookup n!"hex" = some (.builtin n!"hex") := rfl
@[pyrun] theorem glob_bytes : src.globals.lookup n!"bytes" = some (.builtin n!"bytes") := rfl
@[pyrun] theorem glob_next : src.globals.lookup n!"next" = some (.builtin n!"next") := rfl
@[pyrun] theorem glob_isinstance : src.globals.lookup n!"isinstance" = some (.builtin n!"isinstance") := rfl
@[pyrun] theorem glob_type : src.globals.lookup n!"type" = some (.builtin n!"type") := rfl
@[pyrun] theorem glob_super : src.globals.lookup n!"super" = some (.builtin n!"super") := rfl
@[pyrun] theorem glob_setattr : src.globals.lookup n!"setattr" = some (.builtin n!"setattr") := rfl
@[pyrun] theorem glob_getattr : src.globals.lookup n!"getattr" = some (.builtin n!"getattr") := rfl
@[pyrun] theorem glob_dict : src.globals.lookup n!"dict" = some (.builtin n!"dict") := rfl
@[pyrun] theorem glob_set : src.globals.lookup n!"set" = some (.builtin n!"set") := rfl
@[pyrun] theorem glob_enumerate : src.globals.lookup n!"enumerate" = some (.builtin n!"enumerate") := rfl
@[pyrun] theorem glob_AssertionError : src.globals.lookup n!"AssertionError" = some (.cls n!"AssertionError") := rfl
@[pyrun] theorem glob_NotImplementedError : src.globals.lookup n!"NotImplementedError" = some (.cls n!"NotImplementedError") := rfl
@[pyrun] theorem glob_logger : src.globals.lookup n!"logger" = some (.logger) := rfl
@[pyrun] theorem glob_ExceptionBitsError : src.globals.lookup n!"ExceptionBitsError" = some (.cls n!"ExceptionBitsError") := rfl
@[pyrun] theorem glob_Bits : src.globals.lookup n!"Bits" = some (.cls n!"Bits") := rfl
@[pyrun] theorem glob_CRC24Q : src.globals.lookup n!"CRC24Q" = some (.cls n!"CRC24Q") := rfl
@[pyrun] theorem glob_getSubset : src.globals.lookup n!"getSubset" = some (.fn n!"getSubset") := rfl
@[pyrun] theorem glob_LEGT : src.globals.lookup n!"LEGT" = some (.cls n!"LEGT") := rfl
@[pyrun] theorem glob_EPHT : src.globals.lookup n!"EPHT" = some (.cls n!"EPHT") := rfl
@[pyrun] theorem glob_MSMT : src.globals.lookup n!"MSMT" = some (.cls n!"MSMT") := rfl
@[pyrun] theorem glob_math : src.globals.lookup n!"math" = some (.builtin n!"math") := rfl
@[pyrun] theorem glob_copy : src.globals.lookup n!"copy" = some (.builtin n!"copy") := rfl
@[pyrun] theorem glob_fields : src.globals.lookup n!"fields" = some (.builtin n!"fields") := rfl
@[pyrun] theorem glob_asdict : src.globals.lookup n!"asdict" = some (.builtin n!"asdict") := rfl
@[pyrun] theorem glob_DataClassMethods : src.globals.lookup n!"DataClassMethods" = some (.cls n!"DataClassMethods") := rfl
@[pyrun] theorem glob_EphHdr : src.globals.lookup n!"EphHdr" = some (.cls n!"EphHdr") := rfl
@[pyrun] theorem glob_ClockBias : src.globals.lookup n!"ClockBias" = some (.cls n!"ClockBias") := rfl
@[pyrun] theorem glob_Keplerians : src.globals.lookup n!"Keplerians" = some (.cls n!"Keplerians") := rfl
@[pyrun] theorem glob_EphGALF : src.globals.lookup n!"EphGALF" = some (.cls n!"EphGALF") := rfl
@[pyrun] theorem glob_EphGALI : src.globals.lookup n!"EphGALI" = some (.cls n!"EphGALI") := rfl
@[pyrun] theorem glob_EphQZS : src.globals.lookup n!"EphQZS" = some (.cls n!"EphQZS") := rfl
@[pyrun] theorem glob_EphBDS : src.globals.lookup n!"EphBDS" = some (.cls n!"EphBDS") := rfl
@[pyrun] theorem glob_EphGPS : src.globals.lookup n!"EphGPS" = some (.cls n!"EphGPS") := rfl
@[pyrun] theorem glob_EphNAVIC : src.globals.lookup n!"EphNAVIC" = some (.cls n!"EphNAVIC") := rfl
@[pyrun] theorem glob_EphGLO : src.globals.lookup n!"EphGLO" = some (.cls n!"EphGLO") := rfl
@[pyrun] theorem glob_BaseRP : src.globals.lookup n!"BaseRP" = some (.cls n!"BaseRP") := rfl
@[pyrun] theorem glob_BaseRPH : src.globals.lookup n!"BaseRPH" = some (.cls n!"BaseRPH") := rfl
@[pyrun] theorem glob_BaseAD : src.globals.lookup n!"BaseAD" = some (.cls n!"BaseAD") := rfl
@[pyrun] theorem glob_BaseADSN : src.globals.lookup n!"BaseADSN" = some (.cls n!"BaseADSN") := rfl
@[pyrun] theorem glob_BaseADSNRC : src.globals.lookup n!"BaseADSNRC" = some (.cls n!"BaseADSNRC") := rfl
@[pyrun] theorem glob_BaseSPitem : src.globals.lookup n!"BaseSPitem" = some (.cls n!"BaseSPitem") := rfl
@[pyrun] theorem glob_BaseSP : src.globals.lookup n!"BaseSP" = some (.cls n!"BaseSP") := rfl
@[pyrun] theorem glob_BaseTS : src.globals.lookup n!"BaseTS" = some (.cls n!"BaseTS") := rfl
@[pyrun] theorem glob_BaseGLBS : src.globals.lookup n!"BaseGLBS" = some (.cls n!"BaseGLBS") := rfl
@[pyrun] theorem glob_ObservablesMSM : src.globals.lookup n!"ObservablesMSM" = some (.cls n!"ObservablesMSM") := rfl
@[pyrun] theorem glob_Attributes : src.globals.lookup n!"Attributes" = some (.cls n!"Attributes") := rfl
@[pyrun] theorem glob_ObservablesHdrMSM : src.globals.lookup n!"_ObservablesHdrMSM" = some (.cls n!"_ObservablesHdrMSM") := rfl
@[pyrun] theorem glob_ObservablesObs : src.globals.lookup n!"_ObservablesObs" = some (.cls n!"_ObservablesObs") := rfl
@[pyrun] theorem glob_ObservablesAuxMSM : src.globals.lookup n!"_ObservablesAuxMSM" = some (.cls n!"_ObservablesAuxMSM") := rfl
@[pyrun] theorem glob_ObservablesAuxLeg : src.globals.lookup n!"_ObservablesAuxLeg" = some (.cls n!"_ObservablesAuxLeg") := rfl
@[pyrun] theorem glob_BareObservablesHdrMSM : src.globals.lookup n!"_BareObservablesHdrMSM" = some (.cls n!"_BareObservablesHdrMSM") := rfl
@[pyrun] theorem glob_BareObservablesSatDataMSM4567 : src.globals.lookup n!"_BareObservablesSatDataMSM4567" = some (.cls n!"_BareObservablesSatDataMSM4567") := rfl
@[pyrun] theorem glob_BareObservablesSignalDataMSM4567 : src.globals.lookup n!"_BareObservablesSignalDataMSM4567" = some (.cls n!"_BareObservablesSignalDataMSM4567") := rfl
@[pyrun] theorem glob_BareObservablesMSM4567 : src.globals.lookup n!"BareObservablesMSM4567" = some (.cls n!"BareObservablesMSM4567") := rfl
@[pyrun] theorem glob_BareObservablesSatDataMSM123 : src.globals.lookup n!"_BareObservablesSatDataMSM123" = some (.cls n!"_BareObservablesSatDataMSM123") := rfl
@[pyrun] theorem glob_BareObservablesSignalDataMSM123 : src.globals.lookup n!"_BareObservablesSignalDataMSM123" = some (.cls n!"_BareObservablesSignalDataMSM123") := rfl
@[pyrun] theorem glob_BareObservablesMSM123 : src.globals.lookup n!"BareObservablesMSM123" = some (.cls n!"BareObservablesMSM123") := rfl
@[pyrun] theorem glob_ExceptionEphemerisDecoder : src.globals.lookup n!"ExceptionEphemerisDecoder" = some (.cls n!"ExceptionEphemerisDecoder") := rfl
@[pyrun] theorem glob_EphemerisDecoder : src.globals.lookup n!"EphemerisDecoder" = some (.cls n!"EphemerisDecoder") := rfl
@[pyrun] theorem glob_EphemerisDecoder_P_scale1019_ura : src.globals.lookup n!"EphemerisDecoder.__scale1019.ura" = some (.fn n!"EphemerisDecoder.__scale1019.ura") := rfl
@[pyrun] theorem glob_SubdecoderEph : src.globals.lookup n!"SubdecoderEph" = some (.cls n!"SubdecoderEph") := rfl
@[pyrun] theorem glob_ExceptionBaseStationDataDecoder : src.globals.lookup n!"ExceptionBaseStationDataDecoder" = some (.cls n!"ExceptionBaseStationDataDecoder") := rfl
@[pyrun] theorem glob_BaseStationDataDecoder : src.globals.lookup n!"BaseStationDataDecoder" = some (.cls n!"BaseStationDataDecoder") := rfl
@[pyrun] theorem glob_SubdecoderBaseStationData : src.globals.lookup n!"SubdecoderBaseStationData" = some (.cls n!"SubdecoderBaseStationData") := rfl
@[pyrun] theorem glob_ExceptionBareDataStructure : src.globals.lookup n!"ExceptionBareDataStructure" = some (.cls n!"ExceptionBareDataStructure") := rfl
@[pyrun] theorem glob_BareObservablesMSM17Decoder : src.globals.lookup n!"BareObservablesMSM17Decoder" = some (.cls n!"BareObservablesMSM17Decoder") := rfl
@[pyrun] theorem glob_BareObservablesMSM17Decoder_get_msg_num_undecorated : src.globals.lookup n!"BareObservablesMSM17Decoder.get_msg_num$undecorated" = some (.fn n!"BareObservablesMSM17Decoder.get_msg_num$undecorated") := rfl
@[pyrun] theorem glob_Bare2Scaled : src.globals.lookup n!"Bare2Scaled" = some (.cls n!"Bare2Scaled") := rfl
@[pyrun] theorem glob_decode_msm17 : src.globals.lookup n!"decode_msm17" = some (.fn n!"decode_msm17") := rfl
@[pyrun] theorem glob_SubdecoderMSM4567 : src.globals.lookup n!"SubdecoderMSM4567" = some (.cls n!"SubdecoderMSM4567") := rfl
@[pyrun] theorem glob_SubdecoderMSM123 : src.globals.lookup n!"SubdecoderMSM123" = some (.cls n!"SubdecoderMSM123") := rfl
@[pyrun] theorem glob_TEST_DATA_GRABBER : src.globals.lookup n!"TEST_DATA_GRABBER" = some (.const (.none)) := rfl
@[pyrun] theorem glob_SubDecoderInterface : src.globals.lookup n!"SubDecoderInterface" = some (.cls n!"SubDecoderInterface") := rfl
@[pyrun] theorem glob_ExceptionDecoderDecode : src.globals.lookup n!"ExceptionDecoderDecode" = some (.cls n!"ExceptionDecoderDecode") := rfl
@[pyrun] theorem glob_DecoderTop : src.globals.lookup n!"DecoderTop" = some (.cls n!"DecoderTop") := rfl
@[pyrun] theorem glob_DecoderTop_decode_undecorated : src.globals.lookup n!"DecoderTop.decode$undecorated" = some (.fn n!"DecoderTop.decode$undecorated") := rfl
@[pyrun] theorem glob_DecoderTop_mnum_undecorated : src.globals.lookup n!"DecoderTop.mnum$undecorated" = some (.fn n!"DecoderTop.mnum$undecorated") := rfl
@[pyrun] theorem glob_DecoderTop_mlen_undecorated : src.globals.lookup n!"DecoderTop.mlen$undecorated" = some (.fn n!"DecoderTop.mlen$undecorated") := rfl
@[pyrun] theorem glob_DecoderTop_mcrc_undecorated : src.globals.lookup n!"DecoderTop.mcrc$undecorated" = some (.fn n!"DecoderTop.mcrc$undecorated") := rfl
@[pyrun] theorem glob_jdumps : src.globals.lookup n!"jdumps" = some (.builtin n!"json.dumps") := rfl
@[pyrun] theorem glob_JSONControls : src.globals.lookup n!"JSONControls" = some (.cls n!"JSONControls") := rfl
@[pyrun] theorem glob_JSONCore : src.globals.lookup n!"JSONCore" = some (.cls n!"JSONCore") := rfl
@[pyrun] theorem glob_MargoControls : src.globals.lookup n!"MargoControls" = some (.cls n!"MargoControls") := rfl
@[pyrun] theorem glob_MargoCore : src.globals.lookup n!"MargoCore" = some (.cls n!"MargoCore") := rfl
@[pyrun] theorem glob_mEph : src.globals.lookup n!"mEph" = some (.modul [n!"DataClassMethods", n!"ClockBias", n!"EphBDS", n!"EphGALF", n!"EphGALI", n!"EphGLO", n!"EphGPS", n!"EphHdr", n!"EphNAVIC", n!"EphQZS", n!"Keplerians", n!"BaseAD", n!"BaseADSN", n!"BaseADSNRC", n!"BaseGLBS", n!"BaseRP", n!"BaseRPH", n!"BaseSP", n!"BaseSPitem", n!"BaseTS", n!"Attributes", n!"BareObservablesMSM123", n!"BareObservablesMSM4567", n!"ObservablesMSM"]) := rfl
@[pyrun] theorem mem_ExceptionBitsError_process : findMember src n!"ExceptionBitsError" n!"process" =
    some (n!"ExceptionBitsError", .method n!"ExceptionBitsError.process") := rfl
@[pyrun] theorem mem_Bits_MAX_BIT_WIDTH : findMember src n!"Bits" n!"MAX_BIT_WIDTH" =
    some (n!"Bits", .value (.const (.int 128))) := rfl
@[pyrun] theorem mem_Bits_getbitu : findMember src n!"Bits" n!"getbitu" =
    some (n!"Bits", .clsMethod n!"Bits.getbitu") := rfl
@[pyrun] theorem mem_Bits_getbits : findMember src n!"Bits" n!"getbits" =
    some (n!"Bits", .clsMethod n!"Bits.getbits") := rfl
@[pyrun] theorem mem_Bits_revbitu : findMember src n!"Bits" n!"revbitu" =
    some (n!"Bits", .clsMethod n!"Bits.revbitu") := rfl
@[pyrun] theorem mem_Bits_revbits : findMember src n!"Bits" n!"revbits" =
    some (n!"Bits", .clsMethod n!"Bits.revbits") := rfl
@[pyrun] theorem own_CRC24Q_crc_tab (call : CallT) (st : St) :
    ownAttr src call n!"CRC24Q" n!"_crc_tab" (findMember src n!"CRC24Q" n!"_crc_tab") st = (.ok (.stat n!"CRC24Q" n!"_crc_tab"), st) := rfl
@[pyrun] theorem memv_CRC24Q_crc_tab (call : CallT) (self : Val) (st : St) :
    memberVal src call n!"CRC24Q" n!"_crc_tab" self (findMember src n!"CRC24Q" n!"_crc_tab") st = (.ok (.stat n!"CRC24Q" n!"_crc_tab"), st) := rfl
@[pyrun] theorem mem_CRC24Q_calc : findMember src n!"CRC24Q" n!"calc" =
    some (n!"CRC24Q", .clsMethod n!"CRC24Q.calc") := rfl
@[pyrun] theorem mem_LEGT_CRNG_1MS : findMember src n!"LEGT" n!"CRNG_1MS" =
    some (n!"LEGT", .value (.const (.flt 149896229 500))) := rfl
@[pyrun] theorem own_LEGT_LEG1_MSG_LIST (call : CallT) (st : St) :
    ownAttr src call n!"LEGT" n!"LEG1_MSG_LIST" (findMember src n!"LEGT" n!"LEG1_MSG_LIST") st = (.ok (.stat n!"LEGT" n!"LEG1_MSG_LIST"), st) := rfl
@[pyrun] theorem memv_LEGT_LEG1_MSG_LIST (call : CallT) (self : Val) (st : St) :
    memberVal src call n!"LEGT" n!"LEG1_MSG_LIST" self (findMember src n!"LEGT" n!"LEG1_MSG_LIST") st = (.ok (.stat n!"LEGT" n!"LEG1_MSG_LIST"), st) := rfl
@[pyrun] theorem own_LEGT_LEG2_MSG_LIST (call : CallT) (st : St) :
    ownAttr src call n!"LEGT" n!"LEG2_MSG_LIST" (findMember src n!"LEGT" n!"LEG2_MSG_LIST") st = (.ok (.stat n!"LEGT" n!"LEG2_MSG_LIST"), st) := rfl
@[pyrun] theorem memv_LEGT_LEG2_MSG_LIST (call : CallT) (self : Val) (st : St) :
    memberVal src call n!"LEGT" n!"LEG2_MSG_LIST" self (findMember src n!"LEGT" n!"LEG2_MSG_LIST") st = (.ok (.stat n!"LEGT" n!"LEG2_MSG_LIST"), st) := rfl
@[pyrun] theorem own_LEGT_LEG3_MSG_LIST (call : CallT) (st : St) :
    ownAttr src call n!"LEGT" n!"LEG3_MSG_LIST" (findMember src n!"LEGT" n!"LEG3_MSG_LIST") st = (.ok (.stat n!"LEGT" n!"LEG3_MSG_LIST"), st) := rfl
@[pyrun] theorem memv_LEGT_LEG3_MSG_LIST (call : CallT) (self : Val) (st : St) :
    memberVal src call n!"LEGT" n!"LEG3_MSG_LIST" self (findMember src n!"LEGT" n!"LEG3_MSG_LIST") st = (.ok (.stat n!"LEGT" n!"LEG3_MSG_LIST"), st) := rfl
@[pyrun] theorem own_LEGT_LEG4_MSG_LIST (call : CallT) (st : St) :
    ownAttr src call n!"LEGT" n!"LEG4_MSG_LIST" (findMember src n!"LEGT" n!"LEG4_MSG_LIST") st = (.ok (.stat n!"LEGT" n!"LEG4_MSG_LIST"), st) := rfl
@[pyrun] theorem memv_LEGT_LEG4_MSG_LIST (call : CallT) (self : Val) (st : St) :
    memberVal src call n!"LEGT" n!"LEG4_MSG_LIST" self (findMember src n!"LEGT" n!"LEG4_MSG_LIST") st = (.ok (.stat n!"LEGT" n!"LEG4_MSG_LIST"), st) := rfl
@[pyrun] theorem mem_LEGT_legacy_subset : findMember src n!"LEGT" n!"legacy_subset" =
    some (n!"LEGT", .clsMethod n!"LEGT.legacy_subset") := rfl
@[pyrun] theorem own_EPHT_EPH_MSG_LIST (call : CallT) (st : St) :
    ownAttr src call n!"EPHT" n!"EPH_MSG_LIST" (findMember src n!"EPHT" n!"EPH_MSG_LIST") st = (.ok (.stat n!"EPHT" n!"EPH_MSG_LIST"), st) := rfl
@[pyrun] theorem memv_EPHT_EPH_MSG_LIST (call : CallT) (self : Val) (st : St) :
    memberVal src call n!"EPHT" n!"EPH_MSG_LIST" self (findMember src n!"EPHT" n!"EPH_MSG_LIST") st = (.ok (.stat n!"EPHT" n!"EPH_MSG_LIST"), st) := rfl
@[pyrun] theorem mem_EPHT_eph_subset : findMember src n!"EPHT" n!"eph_subset" =
    some (n!"EPHT", .clsMethod n!"EPHT.eph_subset") := rfl
@[pyrun] theorem mem_MSMT_CRNG_1MS : findMember src n!"MSMT" n!"CRNG_1MS" =
    some (n!"MSMT", .value (.const (.flt 149896229 500))) := rfl
@[pyrun] theorem own_MSMT_MSM7_MSG_LIST (call : CallT) (st : St) :
    ownAttr src call n!"MSMT" n!"MSM7_MSG_LIST" (findMember src n!"MSMT" n!"MSM7_MSG_LIST") st = (.ok (.stat n!"MSMT" n!"MSM7_MSG_LIST"), st) := rfl
@[pyrun] theorem memv_MSMT_MSM7_MSG_LIST (call : CallT) (self : Val) (st : St) :
    memberVal src call n!"MSMT" n!"MSM7_MSG_LIST" self (findMember src n!"MSMT" n!"MSM7_MSG_LIST") st = (.ok (.stat n!"MSMT" n!"MSM7_MSG_LIST"), st) := rfl
@[pyrun] theorem own_MSMT_MSM6_MSG_LIST (call : CallT) (st : St) :
    ownAttr src call n!"MSMT" n!"MSM6_MSG_LIST" (findMember src n!"MSMT" n!"MSM6_MSG_LIST") st = (.ok (.stat n!"MSMT" n!"MSM6_MSG_LIST"), st) := rfl
@[pyrun] theorem memv_MSMT_MSM6_MSG_LIST (call : CallT) (self : Val) (st : St) :
    memberVal src call n!"MSMT" n!"MSM6_MSG_LIST" self (findMember src n!"MSMT" n!"MSM6_MSG_LIST") st = (.ok (.stat n!"MSMT" n!"MSM6_MSG_LIST"), st) := rfl
@[pyrun] theorem own_MSMT_MSM5_MSG_LIST (call : CallT) (st : St) :
    ownAttr src call n!"MSMT" n!"MSM5_MSG_LIST" (findMember src n!"MSMT" n!"MSM5_MSG_LIST") st = (.ok (.stat n!"MSMT" n!"MSM5_MSG_LIST"), st) := rfl
@[pyrun] theorem memv_MSMT_MSM5_MSG_LIST (call : CallT) (self : Val) (st : St) :
    memberVal src call n!"MSMT" n!"MSM5_MSG_LIST" self (findMember src n!"MSMT" n!"MSM5_MSG_LIST") st = (.ok (.stat n!"MSMT" n!"MSM5_MSG_LIST"), st) := rfl
@[pyrun] theorem own_MSMT_MSM4_MSG_LIST (call : CallT) (st : St) :
    ownAttr src call n!"MSMT" n!"MSM4_MSG_LIST" (findMember src n!"MSMT" n!"MSM4_MSG_LIST") st = (.ok (.stat n!"MSMT" n!"MSM4_MSG_LIST"), st) := rfl
@[pyrun] theorem memv_MSMT_MSM4_MSG_LIST (call : CallT) (self : Val) (st : St) :
    memberVal src call n!"MSMT" n!"MSM4_MSG_LIST" self (findMember src n!"MSMT" n!"MSM4_MSG_LIST") st = (.ok (.stat n!"MSMT" n!"MSM4_MSG_LIST"), st) := rfl
@[pyrun] theorem own_MSMT_MSM3_MSG_LIST (call : CallT) (st : St) :
    ownAttr src call n!"MSMT" n!"MSM3_MSG_LIST" (findMember src n!"MSMT" n!"MSM3_MSG_LIST") st = (.ok (.stat n!"MSMT" n!"MSM3_MSG_LIST"), st) := rfl
@[pyrun] theorem memv_MSMT_MSM3_MSG_LIST (call : CallT) (self : Val) (st : St) :
    memberVal src call n!"MSMT" n!"MSM3_MSG_LIST" self (findMember src n!"MSMT" n!"MSM3_MSG_LIST") st = (.ok (.stat n!"MSMT" n!"MSM3_MSG_LIST"), st) := rfl
@[pyrun] theorem own_MSMT_MSM2_MSG_LIST (call : CallT) (st : St) :
    ownAttr src call n!"MSMT" n!"MSM2_MSG_LIST" (findMember src n!"MSMT" n!"MSM2_MSG_LIST") st = (.ok (.stat n!"MSMT" n!"MSM2_MSG_LIST"), st) := rfl
@[pyrun] theorem memv_MSMT_MSM2_MSG_LIST (call : CallT) (self : Val) (st : St) :
    memberVal src call n!"MSMT" n!"MSM2_MSG_LIST" self (findMember src n!"MSMT" n!"MSM2_MSG_LIST") st = (.ok (.stat n!"MSMT" n!"MSM2_MSG_LIST"), st) := rfl
@[pyrun] theorem own_MSMT_MSM1_MSG_LIST (call : CallT) (st : St) :
    ownAttr src call n!"MSMT" n!"MSM1_MSG_LIST" (findMember src n!"MSMT" n!"MSM1_MSG_LIST") st = (.ok (.stat n!"MSMT" n!"MSM1_MSG_LIST"), st) := rfl
@[pyrun] theorem memv_MSMT_MSM1_MSG_LIST (call : CallT) (self : Val) (st : St) :
    memberVal src call n!"MSMT" n!"MSM1_MSG_LIST" self (findMember src n!"MSMT" n!"MSM1_MSG_LIST") st = (.ok (.stat n!"MSMT" n!"MSM1_MSG_LIST"), st) := rfl
@[pyrun] theorem own_MSMT_MSMT_P_NAVIC_LIT (call : CallT) (st : St) :
    ownAttr src call n!"MSMT" n!"_MSMT__NAVIC_LIT" (findMember src n!"MSMT" n!"_MSMT__NAVIC_LIT") st = (.ok (.stat n!"MSMT" n!"_MSMT__NAVIC_LIT"), st) := rfl
@[pyrun] theorem memv_MSMT_MSMT_P_NAVIC_LIT (call : CallT) (self : Val) (st : St) :
    memberVal src call n!"MSMT" n!"_MSMT__NAVIC_LIT" self (findMember src n!"MSMT" n!"_MSMT__NAVIC_LIT") st = (.ok (.stat n!"MSMT" n!"_MSMT__NAVIC_LIT"), st) := rfl
@[pyrun] theorem own_MSMT_MSMT_P_BDS_LIT (call : CallT) (st : St) :
    ownAttr src call n!"MSMT" n!"_MSMT__BDS_LIT" (findMember src n!"MSMT" n!"_MSMT__BDS_LIT") st = (.ok (.stat n!"MSMT" n!"_MSMT__BDS_LIT"), st) := rfl
@[pyrun] theorem memv_MSMT_MSMT_P_BDS_LIT (call : CallT) (self : Val) (st : St) :
    memberVal src call n!"MSMT" n!"_MSMT__BDS_LIT" self (findMember src n!"MSMT" n!"_MSMT__BDS_LIT") st = (.ok (.stat n!"MSMT" n!"_MSMT__BDS_LIT"), st) := rfl
@[pyrun] theorem own_MSMT_MSMT_P_QZSS_LIT (call : CallT) (st : St) :
    ownAttr src call n!"MSMT" n!"_MSMT__QZSS_LIT" (findMember src n!"MSMT" n!"_MSMT__QZSS_LIT") st = (.ok (.stat n!"MSMT" n!"_MSMT__QZSS_LIT"), st) := rfl
@[pyrun] theorem memv_MSMT_MSMT_P_QZSS_LIT (call : CallT) (self : Val) (st : St) :
    memberVal src call n!"MSMT" n!"_MSMT__QZSS_LIT" self (findMember src n!"MSMT" n!"_MSMT__QZSS_LIT") st = (.ok (.stat n!"MSMT" n!"_MSMT__QZSS_LIT"), st) := rfl
@[pyrun] theorem own_MSMT_MSMT_P_SBAS_LIT (call : CallT) (st : St) :
    ownAttr src call n!"MSMT" n!"_MSMT__SBAS_LIT" (findMember src n!"MSMT" n!"_MSMT__SBAS_LIT") st = (.ok (.stat n!"MSMT" n!"_MSMT__SBAS_LIT"), st) := rfl
@[pyrun] theorem memv_MSMT_MSMT_P_SBAS_LIT (call : CallT) (self : Val) (st : St) :
    memberVal src call n!"MSMT" n!"_MSMT__SBAS_LIT" self (findMember src n!"MSMT" n!"_MSMT__SBAS_LIT") st = (.ok (.stat n!"MSMT" n!"_MSMT__SBAS_LIT"), st) := rfl
@[pyrun] theorem own_MSMT_MSMT_P_GAL_LIT (call : CallT) (st : St) :
    ownAttr src call n!"MSMT" n!"_MSMT__GAL_LIT" (findMember src n!"MSMT" n!"_MSMT__GAL_LIT") st = (.ok (.stat n!"MSMT" n!"_MSMT__GAL_LIT"), st) := rfl
@[pyrun] theorem memv_MSMT_MSMT_P_GAL_LIT (call : CallT) (self : Val) (st : St) :
    memberVal src call n!"MSMT" n!"_MSMT__GAL_LIT" self (findMember src n!"MSMT" n!"_MSMT__GAL_LIT") st = (.ok (.stat n!"MSMT" n!"_MSMT__GAL_LIT"), st) := rfl
@[pyrun] theorem own_MSMT_MSMT_P_GPS_LIT (call : CallT) (st : St) :
    ownAttr src call n!"MSMT" n!"_MSMT__GPS_LIT" (findMember src n!"MSMT" n!"_MSMT__GPS_LIT") st = (.ok (.stat n!"MSMT" n!"_MSMT__GPS_LIT"), st) := rfl
@[pyrun] theorem memv_MSMT_MSMT_P_GPS_LIT (call : CallT) (self : Val) (st : St) :
    memberVal src call n!"MSMT" n!"_MSMT__GPS_LIT" self (findMember src n!"MSMT" n!"_MSMT__GPS_LIT") st = (.ok (.stat n!"MSMT" n!"_MSMT__GPS_LIT"), st) := rfl
@[pyrun] theorem own_MSMT_MSMT_P_GLN_LIT (call : CallT) (st : St) :
    ownAttr src call n!"MSMT" n!"_MSMT__GLN_LIT" (findMember src n!"MSMT" n!"_MSMT__GLN_LIT") st = (.ok (.stat n!"MSMT" n!"_MSMT__GLN_LIT"), st) := rfl
@[pyrun] theorem memv_MSMT_MSMT_P_GLN_LIT (call : CallT) (self : Val) (st : St) :
    memberVal src call n!"MSMT" n!"_MSMT__GLN_LIT" self (findMember src n!"MSMT" n!"_MSMT__GLN_LIT") st = (.ok (.stat n!"MSMT" n!"_MSMT__GLN_LIT"), st) := rfl
@[pyrun] theorem own_MSMT_MSMT_P_MSM2RINEX_TAB (call : CallT) (st : St) :
    ownAttr src call n!"MSMT" n!"_MSMT__MSM2RINEX_TAB" (findMember src n!"MSMT" n!"_MSMT__MSM2RINEX_TAB") st = (.ok (.stat n!"MSMT" n!"_MSMT__MSM2RINEX_TAB"), st) := rfl
@[pyrun] theorem memv_MSMT_MSMT_P_MSM2RINEX_TAB (call : CallT) (self : Val) (st : St) :
    memberVal src call n!"MSMT" n!"_MSMT__MSM2RINEX_TAB" self (findMember src n!"MSMT" n!"_MSMT__MSM2RINEX_TAB") st = (.ok (.stat n!"MSMT" n!"_MSMT__MSM2RINEX_TAB"), st) := rfl
@[pyrun] theorem own_MSMT_MSMT_P_NAVIC_CF (call : CallT) (st : St) :
    ownAttr src call n!"MSMT" n!"_MSMT__NAVIC_CF" (findMember src n!"MSMT" n!"_MSMT__NAVIC_CF") st = (.ok (.stat n!"MSMT" n!"_MSMT__NAVIC_CF"), st) := rfl
@[pyrun] theorem memv_MSMT_MSMT_P_NAVIC_CF (call : CallT) (self : Val) (st : St) :
    memberVal src call n!"MSMT" n!"_MSMT__NAVIC_CF" self (findMember src n!"MSMT" n!"_MSMT__NAVIC_CF") st = (.ok (.stat n!"MSMT" n!"_MSMT__NAVIC_CF"), st) := rfl
@[pyrun] theorem own_MSMT_MSMT_P_BDS_CF (call : CallT) (st : St) :
    ownAttr src call n!"MSMT" n!"_MSMT__BDS_CF" (findMember src n!"MSMT" n!"_MSMT__BDS_CF") st = (.ok (.stat n!"MSMT" n!"_MSMT__BDS_CF"), st) := rfl
@[pyrun] theorem memv_MSMT_MSMT_P_BDS_CF (call : CallT) (self : Val) (st : St) :
    memberVal src call n!"MSMT" n!"_MSMT__BDS_CF" self (findMember src n!"MSMT" n!"_MSMT__BDS_CF") st = (.ok (.stat n!"MSMT" n!"_MSMT__BDS_CF"), st) := rfl
@[pyrun] theorem own_MSMT_MSMT_P_QZSS_CF (call : CallT) (st : St) :
    ownAttr src call n!"MSMT" n!"_MSMT__QZSS_CF" (findMember src n!"MSMT" n!"_MSMT__QZSS_CF") st = (.ok (.stat n!"MSMT" n!"_MSMT__QZSS_CF"), st) := rfl
@[pyrun] theorem memv_MSMT_MSMT_P_QZSS_CF (call : CallT) (self : Val) (st : St) :
    memberVal src call n!"MSMT" n!"_MSMT__QZSS_CF" self (findMember src n!"MSMT" n!"_MSMT__QZSS_CF") st = (.ok (.stat n!"MSMT" n!"_MSMT__QZSS_CF"), st) := rfl
@[pyrun] theorem own_MSMT_MSMT_P_SBAS_CF (call : CallT) (st : St) :
    ownAttr src call n!"MSMT" n!"_MSMT__SBAS_CF" (findMember src n!"MSMT" n!"_MSMT__SBAS_CF") st = (.ok (.stat n!"MSMT" n!"_MSMT__SBAS_CF"), st) := rfl
@[pyrun] theorem memv_MSMT_MSMT_P_SBAS_CF (call : CallT) (self : Val) (st : St) :
    memberVal src call n!"MSMT" n!"_MSMT__SBAS_CF" self (findMember src n!"MSMT" n!"_MSMT__SBAS_CF") st = (.ok (.stat n!"MSMT" n!"_MSMT__SBAS_CF"), st) := rfl
@[pyrun] theorem own_MSMT_MSMT_P_GAL_CF (call : CallT) (st : St) :
    ownAttr src call n!"MSMT" n!"_MSMT__GAL_CF" (findMember src n!"MSMT" n!"_MSMT__GAL_CF") st = (.ok (.stat n!"MSMT" n!"_MSMT__GAL_CF"), st) := rfl
@[pyrun] theorem memv_MSMT_MSMT_P_GAL_CF (call : CallT) (self : Val) (st : St) :
    memberVal src call n!"MSMT" n!"_MSMT__GAL_CF" self (findMember src n!"MSMT" n!"_MSMT__GAL_CF") st = (.ok (.stat n!"MSMT" n!"_MSMT__GAL_CF"), st) := rfl
@[pyrun] theorem own_MSMT_MSMT_P_GPS_CF (call : CallT) (st : St) :
    ownAttr src call n!"MSMT" n!"_MSMT__GPS_CF" (findMember src n!"MSMT" n!"_MSMT__GPS_CF") st = (.ok (.stat n!"MSMT" n!"_MSMT__GPS_CF"), st) := rfl
@[pyrun] theorem memv_MSMT_MSMT_P_GPS_CF (call : CallT) (self : Val) (st : St) :
    memberVal src call n!"MSMT" n!"_MSMT__GPS_CF" self (findMember src n!"MSMT" n!"_MSMT__GPS_CF") st = (.ok (.stat n!"MSMT" n!"_MSMT__GPS_CF"), st) := rfl
@[pyrun] theorem own_MSMT_MSMT_P_GLN_CF (call : CallT) (st : St) :
    ownAttr src call n!"MSMT" n!"_MSMT__GLN_CF" (findMember src n!"MSMT" n!"_MSMT__GLN_CF") st = (.ok (.stat n!"MSMT" n!"_MSMT__GLN_CF"), st) := rfl
@[pyrun] theorem memv_MSMT_MSMT_P_GLN_CF (call : CallT) (self : Val) (st : St) :
    memberVal src call n!"MSMT" n!"_MSMT__GLN_CF" self (findMember src n!"MSMT" n!"_MSMT__GLN_CF") st = (.ok (.stat n!"MSMT" n!"_MSMT__GLN_CF"), st) := rfl
@[pyrun] theorem own_MSMT_RINEX_CF_TAB (call : CallT) (st : St) :
    ownAttr src call n!"MSMT" n!"_RINEX_CF_TAB" (findMember src n!"MSMT" n!"_RINEX_CF_TAB") st = (.ok (.stat n!"MSMT" n!"_RINEX_CF_TAB"), st) := rfl
@[pyrun] theorem memv_MSMT_RINEX_CF_TAB (call : CallT) (self : Val) (st : St) :
    memberVal src call n!"MSMT" n!"_RINEX_CF_TAB" self (findMember src n!"MSMT" n!"_RINEX_CF_TAB") st = (.ok (.stat n!"MSMT" n!"_RINEX_CF_TAB"), st) := rfl
@[pyrun] theorem mem_MSMT_rnx_lit : findMember src n!"MSMT" n!"rnx_lit" =
    some (n!"MSMT", .clsMethod n!"MSMT.rnx_lit") := rfl
@[pyrun] theorem mem_MSMT_crr_frq : findMember src n!"MSMT" n!"crr_frq" =
    some (n!"MSMT", .clsMethod n!"MSMT.crr_frq") := rfl
@[pyrun] theorem mem_MSMT_msm_subset : findMember src n!"MSMT" n!"msm_subset" =
    some (n!"MSMT", .clsMethod n!"MSMT.msm_subset") := rfl
@[pyrun] theorem mem_MSMT_unpack_clk_steer : findMember src n!"MSMT" n!"unpack_clk_steer" =
    some (n!"MSMT", .static n!"MSMT.unpack_clk_steer") := rfl
@[pyrun] theorem mem_MSMT_unpack_clk_ext : findMember src n!"MSMT" n!"unpack_clk_ext" =
    some (n!"MSMT", .static n!"MSMT.unpack_clk_ext") := rfl
@[pyrun] theorem mem_MSMT_unpack_smth_indc : findMember src n!"MSMT" n!"unpack_smth_indc" =
    some (n!"MSMT", .static n!"MSMT.unpack_smth_indc") := rfl
@[pyrun] theorem mem_MSMT_unpack_smth_intr : findMember src n!"MSMT" n!"unpack_smth_intr" =
    some (n!"MSMT", .static n!"MSMT.unpack_smth_intr") := rfl
@[pyrun] theorem mem_MSMT_unpack_tlock10 : findMember src n!"MSMT" n!"unpack_tlock10" =
    some (n!"MSMT", .static n!"MSMT.unpack_tlock10") := rfl
@[pyrun] theorem mem_MSMT_unpack_tlock4 : findMember src n!"MSMT" n!"unpack_tlock4" =
    some (n!"MSMT", .static n!"MSMT.unpack_tlock4") := rfl
@[pyrun] theorem mem_MSMT_isDF405_OK : findMember src n!"MSMT" n!"isDF405_OK" =
    some (n!"MSMT", .static n!"MSMT.isDF405_OK") := rfl
@[pyrun] theorem mem_MSMT_isDF406_OK : findMember src n!"MSMT" n!"isDF406_OK" =
    some (n!"MSMT", .static n!"MSMT.isDF406_OK") := rfl
@[pyrun] theorem mem_MSMT_isDF400_OK : findMember src n!"MSMT" n!"isDF400_OK" =
    some (n!"MSMT", .static n!"MSMT.isDF400_OK") := rfl
@[pyrun] theorem mem_MSMT_isDF401_OK : findMember src n!"MSMT" n!"isDF401_OK" =
    some (n!"MSMT", .static n!"MSMT.isDF401_OK") := rfl
@[pyrun] theorem mem_MSMT_isDF404_OK : findMember src n!"MSMT" n!"isDF404_OK" =
    some (n!"MSMT", .static n!"MSMT.isDF404_OK") := rfl
@[pyrun] theorem mem_DataClassMethods_items : findMember src n!"DataClassMethods" n!"items" =
    some (n!"DataClassMethods", .method n!"DataClassMethods.items") := rfl
@[pyrun] theorem mem_DataClassMethods_copy : findMember src n!"DataClassMethods" n!"copy" =
    some (n!"DataClassMethods", .method n!"DataClassMethods.copy") := rfl
@[pyrun] theorem mem_DataClassMethods_deepcopy : findMember src n!"DataClassMethods" n!"deepcopy" =
    some (n!"DataClassMethods", .method n!"DataClassMethods.deepcopy") := rfl
@[pyrun] theorem mem_EphGALF_items : findMember src n!"EphGALF" n!"items" =
    some (n!"DataClassMethods", .method n!"DataClassMethods.items") := rfl
@[pyrun] theorem mem_EphGALF_copy : findMember src n!"EphGALF" n!"copy" =
    some (n!"DataClassMethods", .method n!"DataClassMethods.copy") := rfl
@[pyrun] theorem mem_EphGALF_deepcopy : findMember src n!"EphGALF" n!"deepcopy" =
    some (n!"DataClassMethods", .method n!"DataClassMethods.deepcopy") := rfl
@[pyrun] theorem mem_EphGALI_items : findMember src n!"EphGALI" n!"items" =
    some (n!"DataClassMethods", .method n!"DataClassMethods.items") := rfl
@[pyrun] theorem mem_EphGALI_copy : findMember src n!"EphGALI" n!"copy" =
    some (n!"DataClassMethods", .method n!"DataClassMethods.copy") := rfl
@[pyrun] theorem mem_EphGALI_deepcopy : findMember src n!"EphGALI" n!"deepcopy" =
    some (n!"DataClassMethods", .method n!"DataClassMethods.deepcopy") := rfl
@[pyrun] theorem mem_EphQZS_items : findMember src n!"EphQZS" n!"items" =
    some (n!"DataClassMethods", .method n!"DataClassMethods.items") := rfl
@[pyrun] theorem mem_EphQZS_copy : findMember src n!"EphQZS" n!"copy" =
    some (n!"DataClassMethods", .method n!"DataClassMethods.copy") := rfl
@[pyrun] theorem mem_EphQZS_deepcopy : findMember src n!"EphQZS" n!"deepcopy" =
    some (n!"DataClassMethods", .method n!"DataClassMethods.deepcopy") := rfl
@[pyrun] theorem mem_EphBDS_items : findMember src n!"EphBDS" n!"items" =
    some (n!"DataClassMethods", .method n!"DataClassMethods.items") := rfl
@[pyrun] theorem mem_EphBDS_copy : findMember src n!"EphBDS" n!"copy" =
    some (n!"DataClassMethods", .method n!"DataClassMethods.copy") := rfl
@[pyrun] theorem mem_EphBDS_deepcopy : findMember src n!"EphBDS" n!"deepcopy" =
    some (n!"DataClassMethods", .method n!"DataClassMethods.deepcopy") := rfl
@[pyrun] theorem mem_EphGPS_items : findMember src n!"EphGPS" n!"items" =
    some (n!"DataClassMethods", .method n!"DataClassMethods.items") := rfl
@[pyrun] theorem mem_EphGPS_copy : findMember src n!"EphGPS" n!"copy" =
    some (n!"DataClassMethods", .method n!"DataClassMethods.copy") := rfl
@[pyrun] theorem mem_EphGPS_deepcopy : findMember src n!"EphGPS" n!"deepcopy" =
    some (n!"DataClassMethods", .method n!"DataClassMethods.deepcopy") := rfl
@[pyrun] theorem mem_EphNAVIC_L5_Flag : findMember src n!"EphNAVIC" n!"L5_Flag" =
    some (n!"EphNAVIC", .value (.const (.int 0))) := rfl
@[pyrun] theorem mem_EphNAVIC_S_Flag : findMember src n!"EphNAVIC" n!"S_Flag" =
    some (n!"EphNAVIC", .value (.const (.int 0))) := rfl
@[pyrun] theorem mem_EphNAVIC_items : findMember src n!"EphNAVIC" n!"items" =
    some (n!"DataClassMethods", .method n!"DataClassMethods.items") := rfl
@[pyrun] theorem mem_EphNAVIC_copy : findMember src n!"EphNAVIC" n!"copy" =
    some (n!"DataClassMethods", .method n!"DataClassMethods.copy") := rfl
@[pyrun] theorem mem_EphNAVIC_deepcopy : findMember src n!"EphNAVIC" n!"deepcopy" =
    some (n!"DataClassMethods", .method n!"DataClassMethods.deepcopy") := rfl
@[pyrun] theorem mem_EphGLO_items : findMember src n!"EphGLO" n!"items" =
    some (n!"DataClassMethods", .method n!"DataClassMethods.items") := rfl
@[pyrun] theorem mem_EphGLO_copy : findMember src n!"EphGLO" n!"copy" =
    some (n!"DataClassMethods", .method n!"DataClassMethods.copy") := rfl
@[pyrun] theorem mem_EphGLO_deepcopy : findMember src n!"EphGLO" n!"deepcopy" =
    some (n!"DataClassMethods", .method n!"DataClassMethods.deepcopy") := rfl
@[pyrun] theorem mem_BaseRP_items : findMember src n!"BaseRP" n!"items" =
    some (n!"DataClassMethods", .method n!"DataClassMethods.items") := rfl
@[pyrun] theorem mem_BaseRP_copy : findMember src n!"BaseRP" n!"copy" =
    some (n!"DataClassMethods", .method n!"DataClassMethods.copy") := rfl
@[pyrun] theorem mem_BaseRP_deepcopy : findMember src n!"BaseRP" n!"deepcopy" =
    some (n!"DataClassMethods", .method n!"DataClassMethods.deepcopy") := rfl
@[pyrun] theorem mem_BaseRPH_items : findMember src n!"BaseRPH" n!"items" =
    some (n!"DataClassMethods", .method n!"DataClassMethods.items") := rfl
@[pyrun] theorem mem_BaseRPH_copy : findMember src n!"BaseRPH" n!"copy" =
    some (n!"DataClassMethods", .method n!"DataClassMethods.copy") := rfl
@[pyrun] theorem mem_BaseRPH_deepcopy : findMember src n!"BaseRPH" n!"deepcopy" =
    some (n!"DataClassMethods", .method n!"DataClassMethods.deepcopy") := rfl
@[pyrun] theorem mem_BaseAD_items : findMember src n!"BaseAD" n!"items" =
    some (n!"DataClassMethods", .method n!"DataClassMethods.items") := rfl
@[pyrun] theorem mem_BaseAD_copy : findMember src n!"BaseAD" n!"copy" =
    some (n!"DataClassMethods", .method n!"DataClassMethods.copy") := rfl
@[pyrun] theorem mem_BaseAD_deepcopy : findMember src n!"BaseAD" n!"deepcopy" =
    some (n!"DataClassMethods", .method n!"DataClassMethods.deepcopy") := rfl
@[pyrun] theorem mem_BaseADSN_items : findMember src n!"BaseADSN" n!"items" =
    some (n!"DataClassMethods", .method n!"DataClassMethods.items") := rfl
@[pyrun] theorem mem_BaseADSN_copy : findMember src n!"BaseADSN" n!"copy" =
    some (n!"DataClassMethods", .method n!"DataClassMethods.copy") := rfl
@[pyrun] theorem mem_BaseADSN_deepcopy : findMember src n!"BaseADSN" n!"deepcopy" =
    some (n!"DataClassMethods", .method n!"DataClassMethods.deepcopy") := rfl
@[pyrun] theorem mem_BaseADSNRC_items : findMember src n!"BaseADSNRC" n!"items" =
    some (n!"DataClassMethods", .method n!"DataClassMethods.items") := rfl
@[pyrun] theorem mem_BaseADSNRC_copy : findMember src n!"BaseADSNRC" n!"copy" =
    some (n!"DataClassMethods", .method n!"DataClassMethods.copy") := rfl
@[pyrun] theorem mem_BaseADSNRC_deepcopy : findMember src n!"BaseADSNRC" n!"deepcopy" =
    some (n!"DataClassMethods", .method n!"DataClassMethods.deepcopy") := rfl
@[pyrun] theorem mem_BaseSP_items : findMember src n!"BaseSP" n!"items" =
    some (n!"DataClassMethods", .method n!"DataClassMethods.items") := rfl
@[pyrun] theorem mem_BaseSP_copy : findMember src n!"BaseSP" n!"copy" =
    some (n!"DataClassMethods", .method n!"DataClassMethods.copy") := rfl
@[pyrun] theorem mem_BaseSP_deepcopy : findMember src n!"BaseSP" n!"deepcopy" =
    some (n!"DataClassMethods", .method n!"DataClassMethods.deepcopy") := rfl
@[pyrun] theorem mem_BaseTS_items : findMember src n!"BaseTS" n!"items" =
    some (n!"DataClassMethods", .method n!"DataClassMethods.items") := rfl
@[pyrun] theorem mem_BaseTS_copy : findMember src n!"BaseTS" n!"copy" =
    some (n!"DataClassMethods", .method n!"DataClassMethods.copy") := rfl
@[pyrun] theorem mem_BaseTS_deepcopy : findMember src n!"BaseTS" n!"deepcopy" =
    some (n!"DataClassMethods", .method n!"DataClassMethods.deepcopy") := rfl
@[pyrun] theorem mem_BaseGLBS_P_post_init_P : findMember src n!"BaseGLBS" n!"__post_init__" =
    some (n!"BaseGLBS", .method n!"BaseGLBS.__post_init__") := rfl
@[pyrun] theorem mem_BaseGLBS_items : findMember src n!"BaseGLBS" n!"items" =
    some (n!"DataClassMethods", .method n!"DataClassMethods.items") := rfl
@[pyrun] theorem mem_BaseGLBS_copy : findMember src n!"BaseGLBS" n!"copy" =
    some (n!"DataClassMethods", .method n!"DataClassMethods.copy") := rfl
@[pyrun] theorem mem_BaseGLBS_deepcopy : findMember src n!"BaseGLBS" n!"deepcopy" =
    some (n!"DataClassMethods", .method n!"DataClassMethods.deepcopy") := rfl
@[pyrun] theorem mem_ObservablesMSM_P_slots_P : findMember src n!"ObservablesMSM" n!"__slots__" =
    some (n!"ObservablesMSM", .value (.tuple [.const (.str "hdr"), .const (.str "obs"), .const (.str "aux"), .const (.str "atr")])) := rfl
@[pyrun] theorem mem_ObservablesMSM_P_init_P : findMember src n!"ObservablesMSM" n!"__init__" =
    some (n!"ObservablesMSM", .method n!"ObservablesMSM.__init__") := rfl
@[pyrun] theorem mem_Attributes_P_slots_P : findMember src n!"Attributes" n!"__slots__" =
    some (n!"Attributes", .value (.tuple [.const (.str "gnss"), .const (.str "subset"), .const (.str "msg_number")])) := rfl
@[pyrun] theorem mem_Attributes_P_init_P : findMember src n!"Attributes" n!"__init__" =
    some (n!"Attributes", .method n!"Attributes.__init__") := rfl
@[pyrun] theorem mem_Attributes_clear : findMember src n!"Attributes" n!"clear" =
    some (n!"Attributes", .method n!"Attributes.clear") := rfl
@[pyrun] theorem mem_Attributes_is_msm7 : findMember src n!"Attributes" n!"is_msm7" =
    some (n!"Attributes", .prop n!"Attributes.is_msm7") := rfl
@[pyrun] theorem mem_Attributes_is_msm6 : findMember src n!"Attributes" n!"is_msm6" =
    some (n!"Attributes", .prop n!"Attributes.is_msm6") := rfl
@[pyrun] theorem mem_Attributes_is_msm5 : findMember src n!"Attributes" n!"is_msm5" =
    some (n!"Attributes", .prop n!"Attributes.is_msm5") := rfl
@[pyrun] theorem mem_Attributes_is_msm4 : findMember src n!"Attributes" n!"is_msm4" =
    some (n!"Attributes", .prop n!"Attributes.is_msm4") := rfl
@[pyrun] theorem mem_Attributes_is_msm3 : findMember src n!"Attributes" n!"is_msm3" =
    some (n!"Attributes", .prop n!"Attributes.is_msm3") := rfl
@[pyrun] theorem mem_Attributes_is_msm2 : findMember src n!"Attributes" n!"is_msm2" =
    some (n!"Attributes", .prop n!"Attributes.is_msm2") := rfl
@[pyrun] theorem mem_Attributes_is_msm1 : findMember src n!"Attributes" n!"is_msm1" =
    some (n!"Attributes", .prop n!"Attributes.is_msm1") := rfl
@[pyrun] theorem mem_ObservablesHdrMSM_P_slots_P : findMember src n!"_ObservablesHdrMSM" n!"__slots__" =
    some (n!"_ObservablesHdrMSM", .value (.tuple [.const (.str "signals"), .const (.str "sats"), .const (.str "time"), .const (.str "day")])) := rfl
@[pyrun] theorem mem_ObservablesHdrMSM_P_init_P : findMember src n!"_ObservablesHdrMSM" n!"__init__" =
    some (n!"_ObservablesHdrMSM", .method n!"_ObservablesHdrMSM.__init__") := rfl
@[pyrun] theorem mem_ObservablesObs_P_slots_P : findMember src n!"_ObservablesObs" n!"__slots__" =
    some (n!"_ObservablesObs", .value (.tuple [.const (.str "rng"), .const (.str "phs"), .const (.str "ltm"), .const (.str "hca"), .const (.str "dpl"), .const (.str "c2n")])) := rfl
@[pyrun] theorem mem_ObservablesObs_P_init_P : findMember src n!"_ObservablesObs" n!"__init__" =
    some (n!"_ObservablesObs", .method n!"_ObservablesObs.__init__") := rfl
@[pyrun] theorem mem_ObservablesAuxMSM_P_slots_P : findMember src n!"_ObservablesAuxMSM" n!"__slots__" =
    some (n!"_ObservablesAuxMSM", .value (.tuple [.const (.str "rs_id"), .const (.str "MMB"), .const (.str "IODS"), .const (.str "clk_steer"), .const (.str "clk_ext"), .const (.str "smth_indc"), .const (.str "smth_intr")])) := rfl
@[pyrun] theorem mem_ObservablesAuxMSM_P_init_P : findMember src n!"_ObservablesAuxMSM" n!"__init__" =
    some (n!"_ObservablesAuxMSM", .method n!"_ObservablesAuxMSM.__init__") := rfl
@[pyrun] theorem mem_ObservablesAuxLeg_P_slots_P : findMember src n!"_ObservablesAuxLeg" n!"__slots__" =
    some (n!"_ObservablesAuxLeg", .value (.tuple [.const (.str "rs_id")])) := rfl
@[pyrun] theorem mem_ObservablesAuxLeg_P_init_P : findMember src n!"_ObservablesAuxLeg" n!"__init__" =
    some (n!"_ObservablesAuxLeg", .method n!"_ObservablesAuxLeg.__init__") := rfl
@[pyrun] theorem mem_BareObservablesHdrMSM_P_slots_P : findMember src n!"_BareObservablesHdrMSM" n!"__slots__" =
    some (n!"_BareObservablesHdrMSM", .value (.tuple [.const (.str "rs_id"), .const (.str "time"), .const (.str "MMB"), .const (.str "IODS"), .const (.str "clk_steer"), .const (.str "clk_ext"), .const (.str "smth_indc"), .const (.str "smth_intr"), .const (.str "sat_mask"), .const (.str "sgn_mask"), .const (.str "cell_mask")])) := rfl
@[pyrun] theorem mem_BareObservablesHdrMSM_P_init_P : findMember src n!"_BareObservablesHdrMSM" n!"__init__" =
    some (n!"_BareObservablesHdrMSM", .method n!"_BareObservablesHdrMSM.__init__") := rfl
@[pyrun] theorem mem_BareObservablesHdrMSM_clear : findMember src n!"_BareObservablesHdrMSM" n!"clear" =
    some (n!"_BareObservablesHdrMSM", .method n!"_BareObservablesHdrMSM.clear") := rfl
@[pyrun] theorem mem_BareObservablesSatDataMSM4567_P_slots_P : findMember src n!"_BareObservablesSatDataMSM4567" n!"__slots__" =
    some (n!"_BareObservablesSatDataMSM4567", .value (.tuple [.const (.str "rng_ms"), .const (.str "ext_info"), .const (.str "rng_rough"), .const (.str "phase_rate_rough")])) := rfl
@[pyrun] theorem mem_BareObservablesSatDataMSM4567_P_init_P : findMember src n!"_BareObservablesSatDataMSM4567" n!"__init__" =
    some (n!"_BareObservablesSatDataMSM4567", .method n!"_BareObservablesSatDataMSM4567.__init__") := rfl
@[pyrun] theorem mem_BareObservablesSatDataMSM4567_clear : findMember src n!"_BareObservablesSatDataMSM4567" n!"clear" =
    some (n!"_BareObservablesSatDataMSM4567", .method n!"_BareObservablesSatDataMSM4567.clear") := rfl
@[pyrun] theorem mem_BareObservablesSignalDataMSM4567_P_slots_P : findMember src n!"_BareObservablesSignalDataMSM4567" n!"__slots__" =
    some (n!"_BareObservablesSignalDataMSM4567", .value (.tuple [.const (.str "rng_fine"), .const (.str "phase_fine"), .const (.str "lock_time"), .const (.str "hc_indc"), .const (.str "c2n"), .const (.str "phase_rate_fine")])) := rfl
@[pyrun] theorem mem_BareObservablesSignalDataMSM4567_P_init_P : findMember src n!"_BareObservablesSignalDataMSM4567" n!"__init__" =
    some (n!"_BareObservablesSignalDataMSM4567", .method n!"_BareObservablesSignalDataMSM4567.__init__") := rfl
@[pyrun] theorem mem_BareObservablesSignalDataMSM4567_clear : findMember src n!"_BareObservablesSignalDataMSM4567" n!"clear" =
    some (n!"_BareObservablesSignalDataMSM4567", .method n!"_BareObservablesSignalDataMSM4567.clear") := rfl
@[pyrun] theorem mem_BareObservablesMSM4567_P_slots_P : findMember src n!"BareObservablesMSM4567" n!"__slots__" =
    some (n!"BareObservablesMSM4567", .value (.tuple [.const (.str "hdr"), .const (.str "sat"), .const (.str "sgn"), .const (.str "atr")])) := rfl
@[pyrun] theorem mem_BareObservablesMSM4567_P_init_P : findMember src n!"BareObservablesMSM4567" n!"__init__" =
    some (n!"BareObservablesMSM4567", .method n!"BareObservablesMSM4567.__init__") := rfl
@[pyrun] theorem mem_BareObservablesMSM4567_clear : findMember src n!"BareObservablesMSM4567" n!"clear" =
    some (n!"BareObservablesMSM4567", .method n!"BareObservablesMSM4567.clear") := rfl
@[pyrun] theorem mem_BareObservablesMSM4567_time : findMember src n!"BareObservablesMSM4567" n!"time" =
    some (n!"BareObservablesMSM4567", .prop n!"BareObservablesMSM4567.time") := rfl
@[pyrun] theorem mem_BareObservablesMSM4567_day : findMember src n!"BareObservablesMSM4567" n!"day" =
    some (n!"BareObservablesMSM4567", .prop n!"BareObservablesMSM4567.day") := rfl
@[pyrun] theorem mem_BareObservablesSatDataMSM123_P_slots_P : findMember src n!"_BareObservablesSatDataMSM123" n!"__slots__" =
    some (n!"_BareObservablesSatDataMSM123", .value (.tuple [.const (.str "rng_rough")])) := rfl
@[pyrun] theorem mem_BareObservablesSatDataMSM123_P_init_P : findMember src n!"_BareObservablesSatDataMSM123" n!"__init__" =
    some (n!"_BareObservablesSatDataMSM123", .method n!"_BareObservablesSatDataMSM123.__init__") := rfl
@[pyrun] theorem mem_BareObservablesSatDataMSM123_clear : findMember src n!"_BareObservablesSatDataMSM123" n!"clear" =
    some (n!"_BareObservablesSatDataMSM123", .method n!"_BareObservablesSatDataMSM123.clear") := rfl
@[pyrun] theorem mem_BareObservablesSignalDataMSM123_P_slots_P : findMember src n!"_BareObservablesSignalDataMSM123" n!"__slots__" =
    some (n!"_BareObservablesSignalDataMSM123", .value (.tuple [.const (.str "rng_fine"), .const (.str "phase_fine"), .const (.str "lock_time"), .const (.str "hc_indc")])) := rfl
@[pyrun] theorem mem_BareObservablesSignalDataMSM123_P_init_P : findMember src n!"_BareObservablesSignalDataMSM123" n!"__init__" =
    some (n!"_BareObservablesSignalDataMSM123", .method n!"_BareObservablesSignalDataMSM123.__init__") := rfl
@[pyrun] theorem mem_BareObservablesSignalDataMSM123_clear : findMember src n!"_BareObservablesSignalDataMSM123" n!"clear" =
    some (n!"_BareObservablesSignalDataMSM123", .method n!"_BareObservablesSignalDataMSM123.clear") := rfl
@[pyrun] theorem mem_BareObservablesMSM123_P_slots_P : findMember src n!"BareObservablesMSM123" n!"__slots__" =
    some (n!"BareObservablesMSM123", .value (.tuple [.const (.str "hdr"), .const (.str "sat"), .const (.str "sgn"), .const (.str "atr")])) := rfl
@[pyrun] theorem mem_BareObservablesMSM123_P_init_P : findMember src n!"BareObservablesMSM123" n!"__init__" =
    some (n!"BareObservablesMSM123", .method n!"BareObservablesMSM123.__init__") := rfl
@[pyrun] theorem mem_BareObservablesMSM123_clear : findMember src n!"BareObservablesMSM123" n!"clear" =
    some (n!"BareObservablesMSM123", .method n!"BareObservablesMSM123.clear") := rfl
@[pyrun] theorem mem_BareObservablesMSM123_time : findMember src n!"BareObservablesMSM123" n!"time" =
    some (n!"BareObservablesMSM123", .prop n!"BareObservablesMSM123.time") := rfl
@[pyrun] theorem mem_BareObservablesMSM123_day : findMember src n!"BareObservablesMSM123" n!"day" =
    some (n!"BareObservablesMSM123", .prop n!"BareObservablesMSM123.day") := rfl
@[pyrun] theorem mem_EphemerisDecoder_P_init_P : findMember src n!"EphemerisDecoder" n!"__init__" =
    some (n!"EphemerisDecoder", .method n!"EphemerisDecoder.__init__") := rfl
@[pyrun] theorem mem_EphemerisDecoder_get_msg_num : findMember src n!"EphemerisDecoder" n!"get_msg_num" =
    some (n!"EphemerisDecoder", .method n!"EphemerisDecoder.get_msg_num") := rfl
@[pyrun] theorem mem_EphemerisDecoder_EphemerisDecoder_P_length_check : findMember src n!"EphemerisDecoder" n!"_EphemerisDecoder__length_check" =
    some (n!"EphemerisDecoder", .static n!"EphemerisDecoder.__length_check") := rfl
@[pyrun] theorem mem_EphemerisDecoder_EphemerisDecoder_P_decode1019 : findMember src n!"EphemerisDecoder" n!"_EphemerisDecoder__decode1019" =
    some (n!"EphemerisDecoder", .method n!"EphemerisDecoder.__decode1019") := rfl
@[pyrun] theorem mem_EphemerisDecoder_EphemerisDecoder_P_scale1019 : findMember src n!"EphemerisDecoder" n!"_EphemerisDecoder__scale1019" =
    some (n!"EphemerisDecoder", .clsMethod n!"EphemerisDecoder.__scale1019") := rfl
@[pyrun] theorem mem_EphemerisDecoder_getbitS : findMember src n!"EphemerisDecoder" n!"getbitS" =
    some (n!"EphemerisDecoder", .method n!"EphemerisDecoder.getbitS") := rfl
@[pyrun] theorem mem_EphemerisDecoder_EphemerisDecoder_P_decode1020 : findMember src n!"EphemerisDecoder" n!"_EphemerisDecoder__decode1020" =
    some (n!"EphemerisDecoder", .method n!"EphemerisDecoder.__decode1020") := rfl
@[pyrun] theorem mem_EphemerisDecoder_EphemerisDecoder_P_scale1020 : findMember src n!"EphemerisDecoder" n!"_EphemerisDecoder__scale1020" =
    some (n!"EphemerisDecoder", .clsMethod n!"EphemerisDecoder.__scale1020") := rfl
@[pyrun] theorem mem_EphemerisDecoder_EphemerisDecoder_P_decode1041 : findMember src n!"EphemerisDecoder" n!"_EphemerisDecoder__decode1041" =
    some (n!"EphemerisDecoder", .method n!"EphemerisDecoder.__decode1041") := rfl
@[pyrun] theorem mem_EphemerisDecoder_EphemerisDecoder_P_scale1041 : findMember src n!"EphemerisDecoder" n!"_EphemerisDecoder__scale1041" =
    some (n!"EphemerisDecoder", .clsMethod n!"EphemerisDecoder.__scale1041") := rfl
@[pyrun] theorem mem_EphemerisDecoder_EphemerisDecoder_P_decode1042 : findMember src n!"EphemerisDecoder" n!"_EphemerisDecoder__decode1042" =
    some (n!"EphemerisDecoder", .method n!"EphemerisDecoder.__decode1042") := rfl
@[pyrun] theorem mem_EphemerisDecoder_EphemerisDecoder_P_scale1042 : findMember src n!"EphemerisDecoder" n!"_EphemerisDecoder__scale1042" =
    some (n!"EphemerisDecoder", .clsMethod n!"EphemerisDecoder.__scale1042") := rfl
@[pyrun] theorem mem_EphemerisDecoder_EphemerisDecoder_P_decode1046 : findMember src n!"EphemerisDecoder" n!"_EphemerisDecoder__decode1046" =
    some (n!"EphemerisDecoder", .method n!"EphemerisDecoder.__decode1046") := rfl
@[pyrun] theorem mem_EphemerisDecoder_EphemerisDecoder_P_scale1046 : findMember src n!"EphemerisDecoder" n!"_EphemerisDecoder__scale1046" =
    some (n!"EphemerisDecoder", .clsMethod n!"EphemerisDecoder.__scale1046") := rfl
@[pyrun] theorem mem_EphemerisDecoder_EphemerisDecoder_P_decode1045 : findMember src n!"EphemerisDecoder" n!"_EphemerisDecoder__decode1045" =
    some (n!"EphemerisDecoder", .method n!"EphemerisDecoder.__decode1045") := rfl
@[pyrun] theorem mem_EphemerisDecoder_EphemerisDecoder_P_scale1045 : findMember src n!"EphemerisDecoder" n!"_EphemerisDecoder__scale1045" =
    some (n!"EphemerisDecoder", .clsMethod n!"EphemerisDecoder.__scale1045") := rfl
@[pyrun] theorem mem_EphemerisDecoder_EphemerisDecoder_P_decode1044 : findMember src n!"EphemerisDecoder" n!"_EphemerisDecoder__decode1044" =
    some (n!"EphemerisDecoder", .method n!"EphemerisDecoder.__decode1044") := rfl
@[pyrun] theorem mem_EphemerisDecoder_EphemerisDecoder_P_scale1044 : findMember src n!"EphemerisDecoder" n!"_EphemerisDecoder__scale1044" =
    some (n!"EphemerisDecoder", .clsMethod n!"EphemerisDecoder.__scale1044") := rfl
@[pyrun] theorem mem_EphemerisDecoder_EphemerisDecoder_P_decode : findMember src n!"EphemerisDecoder" n!"_EphemerisDecoder__decode" =
    some (n!"EphemerisDecoder", .method n!"EphemerisDecoder.__decode") := rfl
@[pyrun] theorem mem_EphemerisDecoder_scale : findMember src n!"EphemerisDecoder" n!"scale" =
    some (n!"EphemerisDecoder", .clsMethod n!"EphemerisDecoder.scale") := rfl
@[pyrun] theorem mem_EphemerisDecoder_decode : findMember src n!"EphemerisDecoder" n!"decode" =
    some (n!"EphemerisDecoder", .method n!"EphemerisDecoder.decode") := rfl
@[pyrun] theorem mem_EphemerisDecoder_MAX_BIT_WIDTH : findMember src n!"EphemerisDecoder" n!"MAX_BIT_WIDTH" =
    some (n!"Bits", .value (.const (.int 128))) := rfl
@[pyrun] theorem mem_EphemerisDecoder_getbitu : findMember src n!"EphemerisDecoder" n!"getbitu" =
    some (n!"Bits", .clsMethod n!"Bits.getbitu") := rfl
@[pyrun] theorem mem_EphemerisDecoder_getbits : findMember src n!"EphemerisDecoder" n!"getbits" =
    some (n!"Bits", .clsMethod n!"Bits.getbits") := rfl
@[pyrun] theorem mem_EphemerisDecoder_revbitu : findMember src n!"EphemerisDecoder" n!"revbitu" =
    some (n!"Bits", .clsMethod n!"Bits.revbitu") := rfl
@[pyrun] theorem mem_EphemerisDecoder_revbits : findMember src n!"EphemerisDecoder" n!"revbits" =
    some (n!"Bits", .clsMethod n!"Bits.revbits") := rfl
@[pyrun] theorem mem_SubdecoderEph_P_init_P : findMember src n!"SubdecoderEph" n!"__init__" =
    some (n!"SubdecoderEph", .method n!"SubdecoderEph.__init__") := rfl
@[pyrun] theorem mem_SubdecoderEph_decode : findMember src n!"SubdecoderEph" n!"decode" =
    some (n!"SubdecoderEph", .method n!"SubdecoderEph.decode") := rfl
@[pyrun] theorem mem_BaseStationDataDecoder_P_init_P : findMember src n!"BaseStationDataDecoder" n!"__init__" =
    some (n!"BaseStationDataDecoder", .method n!"BaseStationDataDecoder.__init__") := rfl
@[pyrun] theorem mem_BaseStationDataDecoder_get_msg_num : findMember src n!"BaseStationDataDecoder" n!"get_msg_num" =
    some (n!"BaseStationDataDecoder", .method n!"BaseStationDataDecoder.get_msg_num") := rfl
@[pyrun] theorem mem_BaseStationDataDecoder_BaseStationDataDecoder_P_length_check : findMember src n!"BaseStationDataDecoder" n!"_BaseStationDataDecoder__length_check" =
    some (n!"BaseStationDataDecoder", .static n!"BaseStationDataDecoder.__length_check") := rfl
@[pyrun] theorem mem_BaseStationDataDecoder_BaseStationDataDecoder_P_decode10056 : findMember src n!"BaseStationDataDecoder" n!"_BaseStationDataDecoder__decode10056" =
    some (n!"BaseStationDataDecoder", .method n!"BaseStationDataDecoder.__decode10056") := rfl
@[pyrun] theorem mem_BaseStationDataDecoder_BaseStationDataDecoder_P_scale10056 : findMember src n!"BaseStationDataDecoder" n!"_BaseStationDataDecoder__scale10056" =
    some (n!"BaseStationDataDecoder", .clsMethod n!"BaseStationDataDecoder.__scale10056") := rfl
@[pyrun] theorem mem_BaseStationDataDecoder_BaseStationDataDecoder_P_decode10078_1033 : findMember src n!"BaseStationDataDecoder" n!"_BaseStationDataDecoder__decode10078_1033" =
    some (n!"BaseStationDataDecoder", .method n!"BaseStationDataDecoder.__decode10078_1033") := rfl
@[pyrun] theorem mem_BaseStationDataDecoder_BaseStationDataDecoder_P_scale10078_1033 : findMember src n!"BaseStationDataDecoder" n!"_BaseStationDataDecoder__scale10078_1033" =
    some (n!"BaseStationDataDecoder", .clsMethod n!"BaseStationDataDecoder.__scale10078_1033") := rfl
@[pyrun] theorem mem_BaseStationDataDecoder_BaseStationDataDecoder_P_decode1013 : findMember src n!"BaseStationDataDecoder" n!"_BaseStationDataDecoder__decode1013" =
    some (n!"BaseStationDataDecoder", .method n!"BaseStationDataDecoder.__decode1013") := rfl
@[pyrun] theorem mem_BaseStationDataDecoder_BaseStationDataDecoder_P_scale1013 : findMember src n!"BaseStationDataDecoder" n!"_BaseStationDataDecoder__scale1013" =
    some (n!"BaseStationDataDecoder", .clsMethod n!"BaseStationDataDecoder.__scale1013") := rfl
@[pyrun] theorem mem_BaseStationDataDecoder_BaseStationDataDecoder_P_decode1029 : findMember src n!"BaseStationDataDecoder" n!"_BaseStationDataDecoder__decode1029" =
    some (n!"BaseStationDataDecoder", .method n!"BaseStationDataDecoder.__decode1029") := rfl
@[pyrun] theorem mem_BaseStationDataDecoder_BaseStationDataDecoder_P_scale1029 : findMember src n!"BaseStationDataDecoder" n!"_BaseStationDataDecoder__scale1029" =
    some (n!"BaseStationDataDecoder", .clsMethod n!"BaseStationDataDecoder.__scale1029") := rfl
@[pyrun] theorem mem_BaseStationDataDecoder_BaseStationDataDecoder_P_decode1230 : findMember src n!"BaseStationDataDecoder" n!"_BaseStationDataDecoder__decode1230" =
    some (n!"BaseStationDataDecoder", .method n!"BaseStationDataDecoder.__decode1230") := rfl
@[pyrun] theorem mem_BaseStationDataDecoder_BaseStationDataDecoder_P_scale1230 : findMember src n!"BaseStationDataDecoder" n!"_BaseStationDataDecoder__scale1230" =
    some (n!"BaseStationDataDecoder", .clsMethod n!"BaseStationDataDecoder.__scale1230") := rfl
@[pyrun] theorem mem_BaseStationDataDecoder_BaseStationDataDecoder_P_decode : findMember src n!"BaseStationDataDecoder" n!"_BaseStationDataDecoder__decode" =
    some (n!"BaseStationDataDecoder", .method n!"BaseStationDataDecoder.__decode") := rfl
@[pyrun] theorem mem_BaseStationDataDecoder_scale : findMember src n!"BaseStationDataDecoder" n!"scale" =
    some (n!"BaseStationDataDecoder", .clsMethod n!"BaseStationDataDecoder.scale") := rfl
@[pyrun] theorem mem_BaseStationDataDecoder_decode : findMember src n!"BaseStationDataDecoder" n!"decode" =
    some (n!"BaseStationDataDecoder", .method n!"BaseStationDataDecoder.decode") := rfl
@[pyrun] theorem mem_BaseStationDataDecoder_MAX_BIT_WIDTH : findMember src n!"BaseStationDataDecoder" n!"MAX_BIT_WIDTH" =
    some (n!"Bits", .value (.const (.int 128))) := rfl
@[pyrun] theorem mem_BaseStationDataDecoder_getbitu : findMember src n!"BaseStationDataDecoder" n!"getbitu" =
    some (n!"Bits", .clsMethod n!"Bits.getbitu") := rfl
@[pyrun] theorem mem_BaseStationDataDecoder_getbits : findMember src n!"BaseStationDataDecoder" n!"getbits" =
    some (n!"Bits", .clsMethod n!"Bits.getbits") := rfl
@[pyrun] theorem mem_BaseStationDataDecoder_revbitu : findMember src n!"BaseStationDataDecoder" n!"revbitu" =
    some (n!"Bits", .clsMethod n!"Bits.revbitu") := rfl
@[pyrun] theorem mem_BaseStationDataDecoder_revbits : findMember src n!"BaseStationDataDecoder" n!"revbits" =
    some (n!"Bits", .clsMethod n!"Bits.revbits") := rfl
@[pyrun] theorem mem_SubdecoderBaseStationData_P_init_P : findMember src n!"SubdecoderBaseStationData" n!"__init__" =
    some (n!"SubdecoderBaseStationData", .method n!"SubdecoderBaseStationData.__init__") := rfl
@[pyrun] theorem mem_SubdecoderBaseStationData_decode : findMember src n!"SubdecoderBaseStationData" n!"decode" =
    some (n!"SubdecoderBaseStationData", .method n!"SubdecoderBaseStationData.decode") := rfl
@[pyrun] theorem mem_BareObservablesMSM17Decoder_BareObservablesMSM17Decoder_P_MIN_HDR_LEN : findMember src n!"BareObservablesMSM17Decoder" n!"_BareObservablesMSM17Decoder__MIN_HDR_LEN" =
    some (n!"BareObservablesMSM17Decoder", .value (.const (.int 169))) := rfl
@[pyrun] theorem mem_BareObservablesMSM17Decoder_BareObservablesMSM17Decoder_P_BIT_WIDTH_7 : findMember src n!"BareObservablesMSM17Decoder" n!"_BareObservablesMSM17Decoder__BIT_WIDTH_7" =
    some (n!"BareObservablesMSM17Decoder", .value (.tuple [.const (.int 8), .const (.int 4), .const (.int 10), .const (.int 14), .const (.int 20), .const (.int 24), .const (.int 10), .const (.int 1), .const (.int 10), .const (.int 15)])) := rfl
@[pyrun] theorem mem_BareObservablesMSM17Decoder_BareObservablesMSM17Decoder_P_BIT_WIDTH_6 : findMember src n!"BareObservablesMSM17Decoder" n!"_BareObservablesMSM17Decoder__BIT_WIDTH_6" =
    some (n!"BareObservablesMSM17Decoder", .value (.tuple [.const (.int 8), .const (.int 10), .const (.int 20), .const (.int 24), .const (.int 10), .const (.int 1), .const (.int 10)])) := rfl
@[pyrun] theorem mem_BareObservablesMSM17Decoder_BareObservablesMSM17Decoder_P_BIT_WIDTH_5 : findMember src n!"BareObservablesMSM17Decoder" n!"_BareObservablesMSM17Decoder__BIT_WIDTH_5" =
    some (n!"BareObservablesMSM17Decoder", .value (.tuple [.const (.int 8), .const (.int 4), .const (.int 10), .const (.int 14), .const (.int 15), .const (.int 22), .const (.int 4), .const (.int 1), .const (.int 6), .const (.int 15)])) := rfl
@[pyrun] theorem mem_BareObservablesMSM17Decoder_BareObservablesMSM17Decoder_P_BIT_WIDTH_4 : findMember src n!"BareObservablesMSM17Decoder" n!"_BareObservablesMSM17Decoder__BIT_WIDTH_4" =
    some (n!"BareObservablesMSM17Decoder", .value (.tuple [.const (.int 8), .const (.int 10), .const (.int 15), .const (.int 22), .const (.int 4), .const (.int 1), .const (.int 6)])) := rfl
@[pyrun] theorem mem_BareObservablesMSM17Decoder_BareObservablesMSM17Decoder_P_BIT_WIDTH_3 : findMember src n!"BareObservablesMSM17Decoder" n!"_BareObservablesMSM17Decoder__BIT_WIDTH_3" =
    some (n!"BareObservablesMSM17Decoder", .value (.tuple [.const (.int 10), .const (.int 15), .const (.int 22), .const (.int 4), .const (.int 1)])) := rfl
@[pyrun] theorem mem_BareObservablesMSM17Decoder_BareObservablesMSM17Decoder_P_BIT_WIDTH_2 : findMember src n!"BareObservablesMSM17Decoder" n!"_BareObservablesMSM17Decoder__BIT_WIDTH_2" =
    some (n!"BareObservablesMSM17Decoder", .value (.tuple [.const (.int 10), .const (.int 22), .const (.int 4), .const (.int 1)])) := rfl
@[pyrun] theorem mem_BareObservablesMSM17Decoder_BareObservablesMSM17Decoder_P_BIT_WIDTH_1 : findMember src n!"BareObservablesMSM17Decoder" n!"_BareObservablesMSM17Decoder__BIT_WIDTH_1" =
    some (n!"BareObservablesMSM17Decoder", .value (.tuple [.const (.int 10), .const (.int 15)])) := rfl
@[pyrun] theorem mem_BareObservablesMSM17Decoder_P_init_P : findMember src n!"BareObservablesMSM17Decoder" n!"__init__" =
    some (n!"BareObservablesMSM17Decoder", .method n!"BareObservablesMSM17Decoder.__init__") := rfl
@[pyrun] theorem mem_BareObservablesMSM17Decoder_ready : findMember src n!"BareObservablesMSM17Decoder" n!"ready" =
    some (n!"BareObservablesMSM17Decoder", .prop n!"BareObservablesMSM17Decoder.ready") := rfl
@[pyrun] theorem mem_BareObservablesMSM17Decoder_bare_data : findMember src n!"BareObservablesMSM17Decoder" n!"bare_data" =
    some (n!"BareObservablesMSM17Decoder", .prop n!"BareObservablesMSM17Decoder.bare_data") := rfl
@[pyrun] theorem mem_BareObservablesMSM17Decoder_decode : findMember src n!"BareObservablesMSM17Decoder" n!"decode" =
    some (n!"BareObservablesMSM17Decoder", .method n!"BareObservablesMSM17Decoder.decode") := rfl
@[pyrun] theorem mem_BareObservablesMSM17Decoder_get_msg_num : findMember src n!"BareObservablesMSM17Decoder" n!"get_msg_num" =
    some (n!"BareObservablesMSM17Decoder", .method n!"BareObservablesMSM17Decoder.get_msg_num") := rfl
@[pyrun] theorem mem_BareObservablesMSM17Decoder_BareObservablesMSM17Decoder_P_extract_hdr : findMember src n!"BareObservablesMSM17Decoder" n!"_BareObservablesMSM17Decoder__extract_hdr" =
    some (n!"BareObservablesMSM17Decoder", .method n!"BareObservablesMSM17Decoder.__extract_hdr") := rfl
@[pyrun] theorem mem_BareObservablesMSM17Decoder_BareObservablesMSM17Decoder_P_extract_observables4567 : findMember src n!"BareObservablesMSM17Decoder" n!"_BareObservablesMSM17Decoder__extract_observables4567" =
    some (n!"BareObservablesMSM17Decoder", .method n!"BareObservablesMSM17Decoder.__extract_observables4567") := rfl
@[pyrun] theorem mem_BareObservablesMSM17Decoder_BareObservablesMSM17Decoder_P_extract_observables123 : findMember src n!"BareObservablesMSM17Decoder" n!"_BareObservablesMSM17Decoder__extract_observables123" =
    some (n!"BareObservablesMSM17Decoder", .method n!"BareObservablesMSM17Decoder.__extract_observables123") := rfl
@[pyrun] theorem mem_BareObservablesMSM17Decoder_MAX_BIT_WIDTH : findMember src n!"BareObservablesMSM17Decoder" n!"MAX_BIT_WIDTH" =
    some (n!"Bits", .value (.const (.int 128))) := rfl
@[pyrun] theorem mem_BareObservablesMSM17Decoder_getbitu : findMember src n!"BareObservablesMSM17Decoder" n!"getbitu" =
    some (n!"Bits", .clsMethod n!"Bits.getbitu") := rfl
@[pyrun] theorem mem_BareObservablesMSM17Decoder_getbits : findMember src n!"BareObservablesMSM17Decoder" n!"getbits" =
    some (n!"Bits", .clsMethod n!"Bits.getbits") := rfl
@[pyrun] theorem mem_BareObservablesMSM17Decoder_revbitu : findMember src n!"BareObservablesMSM17Decoder" n!"revbitu" =
    some (n!"Bits", .clsMethod n!"Bits.revbitu") := rfl
@[pyrun] theorem mem_BareObservablesMSM17Decoder_revbits : findMember src n!"BareObservablesMSM17Decoder" n!"revbits" =
    some (n!"Bits", .clsMethod n!"Bits.revbits") := rfl
@[pyrun] theorem own_Bare2Scaled_Bare2Scaled_P_SCALERS67 (call : CallT) (st : St) :
    ownAttr src call n!"Bare2Scaled" n!"_Bare2Scaled__SCALERS67" (findMember src n!"Bare2Scaled" n!"_Bare2Scaled__SCALERS67") st = (.ok (.stat n!"Bare2Scaled" n!"_Bare2Scaled__SCALERS67"), st) := rfl
@[pyrun] theorem memv_Bare2Scaled_Bare2Scaled_P_SCALERS67 (call : CallT) (self : Val) (st : St) :
    memberVal src call n!"Bare2Scaled" n!"_Bare2Scaled__SCALERS67" self (findMember src n!"Bare2Scaled" n!"_Bare2Scaled__SCALERS67") st = (.ok (.stat n!"Bare2Scaled" n!"_Bare2Scaled__SCALERS67"), st) := rfl
@[pyrun] theorem own_Bare2Scaled_Bare2Scaled_P_SCALERS45 (call : CallT) (st : St) :
    ownAttr src call n!"Bare2Scaled" n!"_Bare2Scaled__SCALERS45" (findMember src n!"Bare2Scaled" n!"_Bare2Scaled__SCALERS45") st = (.ok (.stat n!"Bare2Scaled" n!"_Bare2Scaled__SCALERS45"), st) := rfl
@[pyrun] theorem memv_Bare2Scaled_Bare2Scaled_P_SCALERS45 (call : CallT) (self : Val) (st : St) :
    memberVal src call n!"Bare2Scaled" n!"_Bare2Scaled__SCALERS45" self (findMember src n!"Bare2Scaled" n!"_Bare2Scaled__SCALERS45") st = (.ok (.stat n!"Bare2Scaled" n!"_Bare2Scaled__SCALERS45"), st) := rfl
@[pyrun] theorem own_Bare2Scaled_Bare2Scaled_P_CHECKERS67 (call : CallT) (st : St) :
    ownAttr src call n!"Bare2Scaled" n!"_Bare2Scaled__CHECKERS67" (findMember src n!"Bare2Scaled" n!"_Bare2Scaled__CHECKERS67") st = (.ok (.stat n!"Bare2Scaled" n!"_Bare2Scaled__CHECKERS67"), st) := rfl
@[pyrun] theorem memv_Bare2Scaled_Bare2Scaled_P_CHECKERS67 (call : CallT) (self : Val) (st : St) :
    memberVal src call n!"Bare2Scaled" n!"_Bare2Scaled__CHECKERS67" self (findMember src n!"Bare2Scaled" n!"_Bare2Scaled__CHECKERS67") st = (.ok (.stat n!"Bare2Scaled" n!"_Bare2Scaled__CHECKERS67"), st) := rfl
@[pyrun] theorem own_Bare2Scaled_Bare2Scaled_P_CHECKERS45 (call : CallT) (st : St) :
    ownAttr src call n!"Bare2Scaled" n!"_Bare2Scaled__CHECKERS45" (findMember src n!"Bare2Scaled" n!"_Bare2Scaled__CHECKERS45") st = (.ok (.stat n!"Bare2Scaled" n!"_Bare2Scaled__CHECKERS45"), st) := rfl
@[pyrun] theorem memv_Bare2Scaled_Bare2Scaled_P_CHECKERS45 (call : CallT) (self : Val) (st : St) :
    memberVal src call n!"Bare2Scaled" n!"_Bare2Scaled__CHECKERS45" self (findMember src n!"Bare2Scaled" n!"_Bare2Scaled__CHECKERS45") st = (.ok (.stat n!"Bare2Scaled" n!"_Bare2Scaled__CHECKERS45"), st) := rfl
@[pyrun] theorem mem_Bare2Scaled_P_init_P : findMember src n!"Bare2Scaled" n!"__init__" =
    some (n!"Bare2Scaled", .method n!"Bare2Scaled.__init__") := rfl
@[pyrun] theorem mem_Bare2Scaled_convert : findMember src n!"Bare2Scaled" n!"convert" =
    some (n!"Bare2Scaled", .method n!"Bare2Scaled.convert") := rfl
@[pyrun] theorem mem_Bare2Scaled_convert_obs47 : findMember src n!"Bare2Scaled" n!"_convert_obs47" =
    some (n!"Bare2Scaled", .method n!"Bare2Scaled._convert_obs47") := rfl
@[pyrun] theorem mem_Bare2Scaled_convert_obs13 : findMember src n!"Bare2Scaled" n!"_convert_obs13" =
    some (n!"Bare2Scaled", .method n!"Bare2Scaled._convert_obs13") := rfl
@[pyrun] theorem mem_SubdecoderMSM4567_P_init_P : findMember src n!"SubdecoderMSM4567" n!"__init__" =
    some (n!"SubdecoderMSM4567", .method n!"SubdecoderMSM4567.__init__") := rfl
@[pyrun] theorem mem_SubdecoderMSM4567_decode : findMember src n!"SubdecoderMSM4567" n!"decode" =
    some (n!"SubdecoderMSM4567", .method n!"SubdecoderMSM4567.decode") := rfl
@[pyrun] theorem mem_SubdecoderMSM123_P_init_P : findMember src n!"SubdecoderMSM123" n!"__init__" =
    some (n!"SubdecoderMSM123", .method n!"SubdecoderMSM123.__init__") := rfl
@[pyrun] theorem mem_SubdecoderMSM123_decode : findMember src n!"SubdecoderMSM123" n!"decode" =
    some (n!"SubdecoderMSM123", .method n!"SubdecoderMSM123.decode") := rfl
@[pyrun] theorem mem_SubDecoderInterface_SubDecoderInterface_P_make_MSM47O_spec : findMember src n!"SubDecoderInterface" n!"_SubDecoderInterface__make_MSM47O_spec" =
    some (n!"SubDecoderInterface", .static n!"SubDecoderInterface.__make_MSM47O_spec") := rfl
@[pyrun] theorem mem_SubDecoderInterface_SubDecoderInterface_P_make_MSM13O_spec : findMember src n!"SubDecoderInterface" n!"_SubDecoderInterface__make_MSM13O_spec" =
    some (n!"SubDecoderInterface", .static n!"SubDecoderInterface.__make_MSM13O_spec") := rfl
@[pyrun] theorem mem_SubDecoderInterface_SubDecoderInterface_P_make_EPH_spec : findMember src n!"SubDecoderInterface" n!"_SubDecoderInterface__make_EPH_spec" =
    some (n!"SubDecoderInterface", .static n!"SubDecoderInterface.__make_EPH_spec") := rfl
@[pyrun] theorem mem_SubDecoderInterface_SubDecoderInterface_P_make_BASE_spec : findMember src n!"SubDecoderInterface" n!"_SubDecoderInterface__make_BASE_spec" =
    some (n!"SubDecoderInterface", .static n!"SubDecoderInterface.__make_BASE_spec") := rfl
@[pyrun] theorem mem_SubDecoderInterface_SubDecoderInterface_P_make_LEGO_spec : findMember src n!"SubDecoderInterface" n!"_SubDecoderInterface__make_LEGO_spec" =
    some (n!"SubDecoderInterface", .static n!"SubDecoderInterface.__make_LEGO_spec") := rfl
@[pyrun] theorem mem_SubDecoderInterface_default_decode : findMember src n!"SubDecoderInterface" n!"default_decode" =
    some (n!"SubDecoderInterface", .static n!"SubDecoderInterface.default_decode") := rfl
@[pyrun] theorem own_SubDecoderInterface_RTCM_MSG_SUBSETS (call : CallT) (st : St) :
    ownAttr src call n!"SubDecoderInterface" n!"_RTCM_MSG_SUBSETS" (findMember src n!"SubDecoderInterface" n!"_RTCM_MSG_SUBSETS") st = (.ok (.stat n!"SubDecoderInterface" n!"_RTCM_MSG_SUBSETS"), st) := rfl
@[pyrun] theorem memv_SubDecoderInterface_RTCM_MSG_SUBSETS (call : CallT) (self : Val) (st : St) :
    memberVal src call n!"SubDecoderInterface" n!"_RTCM_MSG_SUBSETS" self (findMember src n!"SubDecoderInterface" n!"_RTCM_MSG_SUBSETS") st = (.ok (.stat n!"SubDecoderInterface" n!"_RTCM_MSG_SUBSETS"), st) := rfl
@[pyrun] theorem mem_SubDecoderInterface_P_init_P : findMember src n!"SubDecoderInterface" n!"__init__" =
    some (n!"SubDecoderInterface", .method n!"SubDecoderInterface.__init__") := rfl
@[pyrun] theorem mem_DecoderTop_P_init_P : findMember src n!"DecoderTop" n!"__init__" =
    some (n!"DecoderTop", .method n!"DecoderTop.__init__") := rfl
@[pyrun] theorem mem_DecoderTop_register_decoder : findMember src n!"DecoderTop" n!"register_decoder" =
    some (n!"DecoderTop", .method n!"DecoderTop.register_decoder") := rfl
@[pyrun] theorem mem_DecoderTop_decode : findMember src n!"DecoderTop" n!"decode" =
    some (n!"DecoderTop", .method n!"DecoderTop.decode") := rfl
@[pyrun] theorem mem_DecoderTop_catch_message : findMember src n!"DecoderTop" n!"catch_message" =
    some (n!"DecoderTop", .method n!"DecoderTop.catch_message") := rfl
@[pyrun] theorem mem_DecoderTop_DecoderTop_P_rebase_to_D3 : findMember src n!"DecoderTop" n!"_DecoderTop__rebase_to_D3" =
    some (n!"DecoderTop", .method n!"DecoderTop.__rebase_to_D3") := rfl
@[pyrun] theorem mem_DecoderTop_parse_errors : findMember src n!"DecoderTop" n!"parse_errors" =
    some (n!"DecoderTop", .prop n!"DecoderTop.parse_errors") := rfl
@[pyrun] theorem mem_DecoderTop_dec_errors : findMember src n!"DecoderTop" n!"dec_errors" =
    some (n!"DecoderTop", .prop n!"DecoderTop.dec_errors") := rfl
@[pyrun] theorem mem_DecoderTop_dec_attempts : findMember src n!"DecoderTop" n!"dec_attempts" =
    some (n!"DecoderTop", .prop n!"DecoderTop.dec_attempts") := rfl
@[pyrun] theorem mem_DecoderTop_mnum : findMember src n!"DecoderTop" n!"mnum" =
    some (n!"DecoderTop", .static n!"DecoderTop.mnum") := rfl
@[pyrun] theorem mem_DecoderTop_mlen : findMember src n!"DecoderTop" n!"mlen" =
    some (n!"DecoderTop", .static n!"DecoderTop.mlen") := rfl
@[pyrun] theorem mem_DecoderTop_mcrc : findMember src n!"DecoderTop" n!"mcrc" =
    some (n!"DecoderTop", .static n!"DecoderTop.mcrc") := rfl
@[pyrun] theorem mem_JSONControls_P_slots_P : findMember src n!"JSONControls" n!"__slots__" =
    some (n!"JSONControls", .value (.tuple [.const (.str "enable_hdr_data"), .const (.str "enable_aux_data"), .const (.str "enable_pretty_view")])) := rfl
@[pyrun] theorem mem_JSONControls_P_init_P : findMember src n!"JSONControls" n!"__init__" =
    some (n!"JSONControls", .method n!"JSONControls.__init__") := rfl
@[pyrun] theorem mem_JSONCore_P_init_P : findMember src n!"JSONCore" n!"__init__" =
    some (n!"JSONCore", .method n!"JSONCore.__init__") := rfl
@[pyrun] theorem mem_JSONCore_ObservablesMSMtoPrintBuffer : findMember src n!"JSONCore" n!"ObservablesMSMtoPrintBuffer" =
    some (n!"JSONCore", .method n!"JSONCore.ObservablesMSMtoPrintBuffer") := rfl
@[pyrun] theorem mem_JSONCore_BareObservablesMSMtoPrintBuffer : findMember src n!"JSONCore" n!"BareObservablesMSMtoPrintBuffer" =
    some (n!"JSONCore", .method n!"JSONCore.BareObservablesMSMtoPrintBuffer") := rfl
@[pyrun] theorem mem_JSONCore_dataClassToPrintBuffer : findMember src n!"JSONCore" n!"dataClassToPrintBuffer" =
    some (n!"JSONCore", .method n!"JSONCore.dataClassToPrintBuffer") := rfl
@[pyrun] theorem mem_MargoControls_P_slots_P : findMember src n!"MargoControls" n!"__slots__" =
    some (n!"MargoControls", .value (.tuple [.const (.str "half_cycle_enable"), .const (.str "lock_time_enable"), .const (.str "gps_utc_shift"), .const (.str "glo_lit_tab")])) := rfl
@[pyrun] theorem mem_MargoControls_P_init_P : findMember src n!"MargoControls" n!"__init__" =
    some (n!"MargoControls", .method n!"MargoControls.__init__") := rfl
@[pyrun] theorem mem_MargoCore_DEFAULT_CONTROLS : findMember src n!"MargoCore" n!"_DEFAULT_CONTROLS" =
    some (n!"MargoCore", .value (.call (.name n!"MargoControls") [])) := rfl
@[pyrun] theorem mem_MargoCore_P_init_P : findMember src n!"MargoCore" n!"__init__" =
    some (n!"MargoCore", .method n!"MargoCore.__init__") := rfl
@[pyrun] theorem mem_MargoCore_literals : findMember src n!"MargoCore" n!"literals" =
    some (n!"MargoCore", .prop n!"MargoCore.literals") := rfl
@[pyrun] theorem mem_MargoCore_utc_shift : findMember src n!"MargoCore" n!"utc_shift" =
    some (n!"MargoCore", .prop n!"MargoCore.utc_shift") := rfl
@[pyrun] theorem mem_MargoCore_HC_EN : findMember src n!"MargoCore" n!"HC_EN" =
    some (n!"MargoCore", .prop n!"MargoCore.HC_EN") := rfl
@[pyrun] theorem mem_MargoCore_LT_EN : findMember src n!"MargoCore" n!"LT_EN" =
    some (n!"MargoCore", .prop n!"MargoCore.LT_EN") := rfl
@[pyrun] theorem own_MargoCore_MargoCore_P_OFILE_LT1 (call : CallT) (st : St) :
    ownAttr src call n!"MargoCore" n!"_MargoCore__OFILE_LT1" (findMember src n!"MargoCore" n!"_MargoCore__OFILE_LT1") st = (.ok (.stat n!"MargoCore" n!"_MargoCore__OFILE_LT1"), st) := rfl
@[pyrun] theorem memv_MargoCore_MargoCore_P_OFILE_LT1 (call : CallT) (self : Val) (st : St) :
    memberVal src call n!"MargoCore" n!"_MargoCore__OFILE_LT1" self (findMember src n!"MargoCore" n!"_MargoCore__OFILE_LT1") st = (.ok (.stat n!"MargoCore" n!"_MargoCore__OFILE_LT1"), st) := rfl
@[pyrun] theorem mem_MargoCore_DIRNAME : findMember src n!"MargoCore" n!"DIRNAME" =
    some (n!"MargoCore", .clsMethod n!"MargoCore.DIRNAME") := rfl
@[pyrun] theorem mem_MargoCore_GNSSTUPLE : findMember src n!"MargoCore" n!"GNSSTUPLE" =
    some (n!"MargoCore", .clsMethod n!"MargoCore.GNSSTUPLE") := rfl
@[pyrun] theorem own_MargoCore_MargoCore_P_FORMAT_COLUMNS (call : CallT) (st : St) :
    ownAttr src call n!"MargoCore" n!"_MargoCore__FORMAT_COLUMNS" (findMember src n!"MargoCore" n!"_MargoCore__FORMAT_COLUMNS") st = (.ok (.stat n!"MargoCore" n!"_MargoCore__FORMAT_COLUMNS"), st) := rfl
@[pyrun] theorem memv_MargoCore_MargoCore_P_FORMAT_COLUMNS (call : CallT) (self : Val) (st : St) :
    memberVal src call n!"MargoCore" n!"_MargoCore__FORMAT_COLUMNS" self (findMember src n!"MargoCore" n!"_MargoCore__FORMAT_COLUMNS") st = (.ok (.stat n!"MargoCore" n!"_MargoCore__FORMAT_COLUMNS"), st) := rfl
@[pyrun] theorem own_MargoCore_MargoCore_P_MARGO_FILE_ID (call : CallT) (st : St) :
    ownAttr src call n!"MargoCore" n!"_MargoCore__MARGO_FILE_ID" (findMember src n!"MargoCore" n!"_MargoCore__MARGO_FILE_ID") st = (.ok (.stat n!"MargoCore" n!"_MargoCore__MARGO_FILE_ID"), st) := rfl
@[pyrun] theorem memv_MargoCore_MargoCore_P_MARGO_FILE_ID (call : CallT) (self : Val) (st : St) :
    memberVal src call n!"MargoCore" n!"_MargoCore__MARGO_FILE_ID" self (findMember src n!"MargoCore" n!"_MargoCore__MARGO_FILE_ID") st = (.ok (.stat n!"MargoCore" n!"_MargoCore__MARGO_FILE_ID"), st) := rfl
@[pyrun] theorem own_MargoCore_MargoCore_P_MAX_SATS (call : CallT) (st : St) :
    ownAttr src call n!"MargoCore" n!"_MargoCore__MAX_SATS" (findMember src n!"MargoCore" n!"_MargoCore__MAX_SATS") st = (.ok (.stat n!"MargoCore" n!"_MargoCore__MAX_SATS"), st) := rfl
@[pyrun] theorem memv_MargoCore_MargoCore_P_MAX_SATS (call : CallT) (self : Val) (st : St) :
    memberVal src call n!"MargoCore" n!"_MargoCore__MAX_SATS" self (findMember src n!"MargoCore" n!"_MargoCore__MAX_SATS") st = (.ok (.stat n!"MargoCore" n!"_MargoCore__MAX_SATS"), st) := rfl
@[pyrun] theorem mem_MargoCore_FORMAT : findMember src n!"MargoCore" n!"FORMAT" =
    some (n!"MargoCore", .clsMethod n!"MargoCore.FORMAT") := rfl
@[pyrun] theorem mem_MargoCore_MARGO_FILE_ID : findMember src n!"MargoCore" n!"MARGO_FILE_ID" =
    some (n!"MargoCore", .clsMethod n!"MargoCore.MARGO_FILE_ID") := rfl
@[pyrun] theorem mem_MargoCore_MAX_SATS : findMember src n!"MargoCore" n!"MAX_SATS" =
    some (n!"MargoCore", .clsMethod n!"MargoCore.MAX_SATS") := rfl
@[pyrun] theorem mem_MargoCore_make_obs_file_name : findMember src n!"MargoCore" n!"make_obs_file_name" =
    some (n!"MargoCore", .clsMethod n!"MargoCore.make_obs_file_name") := rfl
@[pyrun] theorem mem_MargoCore_conv_to_gps_time : findMember src n!"MargoCore" n!"conv_to_gps_time" =
    some (n!"MargoCore", .clsMethod n!"MargoCore.conv_to_gps_time") := rfl
@[pyrun] theorem mem_MargoCore_make_crr_frq : findMember src n!"MargoCore" n!"make_crr_frq" =
    some (n!"MargoCore", .method n!"MargoCore.make_crr_frq") := rfl
@[pyrun] theorem mem_MargoCore_make_lambdas : findMember src n!"MargoCore" n!"make_lambdas" =
    some (n!"MargoCore", .method n!"MargoCore.make_lambdas") := rfl
@[pyrun] theorem mem_MargoCore_ObservablesMSMtoPrintBuffer : findMember src n!"MargoCore" n!"ObservablesMSMtoPrintBuffer" =
    some (n!"MargoCore", .method n!"MargoCore.ObservablesMSMtoPrintBuffer") := rfl
@[pyrun] theorem new_ExceptionBitsError (call : CallT) (args : List Val) (st : St) :
    construct src call n!"ExceptionBitsError" args st = (.ok (.exc n!"ExceptionBitsError"), st) := rfl
@[pyrun] theorem new_Bits (call : CallT) (st : St) :
    construct src call n!"Bits" [] st =
      M.seq (M.alloc (.inst n!"Bits" []) st) (fun a => M.pure (.ref a)) := rfl
@[pyrun] theorem new_CRC24Q (call : CallT) (st : St) :
    construct src call n!"CRC24Q" [] st =
      M.seq (M.alloc (.inst n!"CRC24Q" []) st) (fun a => M.pure (.ref a)) := rfl
@[pyrun] theorem new_LEGT (call : CallT) (st : St) :
    construct src call n!"LEGT" [] st =
      M.seq (M.alloc (.inst n!"LEGT" []) st) (fun a => M.pure (.ref a)) := rfl
@[pyrun] theorem new_EPHT (call : CallT) (st : St) :
    construct src call n!"EPHT" [] st =
      M.seq (M.alloc (.inst n!"EPHT" []) st) (fun a => M.pure (.ref a)) := rfl
@[pyrun] theorem new_MSMT (call : CallT) (st : St) :
    construct src call n!"MSMT" [] st =
      M.seq (M.alloc (.inst n!"MSMT" []) st) (fun a => M.pure (.ref a)) := rfl
theorem fields_DataClassMethods : dataFields src n!"DataClassMethods" =
    [] := rfl
@[pyrun] theorem new_DataClassMethods (call : CallT) (st : St) :
    construct src call n!"DataClassMethods" [] st =
      M.seq (M.alloc (.inst n!"DataClassMethods" []) st) (fun a => M.mapList fieldVal (dataFields src n!"DataClassMethods") >>= fun fs =>
        M.write a (.inst n!"DataClassMethods" fs) >>= fun _ => M.pure (.ref a)) := rfl
theorem fields_EphHdr : dataFields src n!"EphHdr" =
    [(n!"msgNum", .const (.int 0)),
      (n!"satNum", .const (.int 0)),
      (n!"weekNum", .const (.int 0))] := rfl
@[pyrun] theorem new_EphHdr (call : CallT) (st : St) :
    construct src call n!"EphHdr" [] st =
      M.seq (M.alloc (.inst n!"EphHdr" []) st) (fun a => M.mapList fieldVal (dataFields src n!"EphHdr") >>= fun fs =>
        M.write a (.inst n!"EphHdr" fs) >>= fun _ => M.pure (.ref a)) := rfl
theorem fields_ClockBias : dataFields src n!"ClockBias" =
    [(n!"tc", .const (.int 0)),
      (n!"af0", .const (.int 0)),
      (n!"af1", .const (.int 0)),
      (n!"af2", .const (.int 0))] := rfl
@[pyrun] theorem new_ClockBias (call : CallT) (st : St) :
    construct src call n!"ClockBias" [] st =
      M.seq (M.alloc (.inst n!"ClockBias" []) st) (fun a => M.mapList fieldVal (dataFields src n!"ClockBias") >>= fun fs =>
        M.write a (.inst n!"ClockBias" fs) >>= fun _ => M.pure (.ref a)) := rfl
theorem fields_Keplerians : dataFields src n!"Keplerians" =
    [(n!"te", .const (.int 0)),
      (n!"delta_n", .const (.int 0)),
      (n!"m0", .const (.int 0)),
      (n!"e", .const (.int 0)),
      (n!"sqrt_a", .const (.int 0)),
      (n!"w", .const (.int 0)),
      (n!"i0", .const (.int 0)),
      (n!"i_dot", .const (.int 0)),
      (n!"omega0", .const (.int 0)),
      (n!"omega_dot", .const (.int 0)),
      (n!"crs", .const (.int 0)),
      (n!"crc", .const (.int 0)),
      (n!"cuc", .const (.int 0)),
      (n!"cus", .const (.int 0)),
      (n!"cic", .const (.int 0)),
      (n!"cis", .const (.int 0))] := rfl
@[pyrun] theorem new_Keplerians (call : CallT) (st : St) :
    construct src call n!"Keplerians" [] st =
      M.seq (M.alloc (.inst n!"Keplerians" []) st) (fun a => M.mapList fieldVal (dataFields src n!"Keplerians") >>= fun fs =>
        M.write a (.inst n!"Keplerians" fs) >>= fun _ => M.pure (.ref a)) := rfl
theorem fields_EphGALF : dataFields src n!"EphGALF" =
    [(n!"msgNum", .const (.int 0)),
      (n!"satNum", .const (.int 0)),
      (n!"weekNum", .const (.int 0)),
      (n!"tc", .const (.int 0)),
      (n!"af0", .const (.int 0)),
      (n!"af1", .const (.int 0)),
      (n!"af2", .const (.int 0)),
      (n!"te", .const (.int 0)),
      (n!"delta_n", .const (.int 0)),
      (n!"m0", .const (.int 0)),
      (n!"e", .const (.int 0)),
      (n!"sqrt_a", .const (.int 0)),
      (n!"w", .const (.int 0)),
      (n!"i0", .const (.int 0)),
      (n!"i_dot", .const (.int 0)),
      (n!"omega0", .const (.int 0)),
      (n!"omega_dot", .const (.int 0)),
      (n!"crs", .const (.int 0)),
      (n!"crc", .const (.int 0)),
      (n!"cuc", .const (.int 0)),
      (n!"cus", .const (.int 0)),
      (n!"cic", .const (.int 0)),
      (n!"cis", .const (.int 0)),
      (n!"IODnav", .const (.int 0)),
      (n!"SISA", .const (.int 0)),
      (n!"E5a_BGD", .const (.int 0)),
      (n!"E5a_SHS", .const (.int 0)),
      (n!"E5a_DVS", .const (.int 0))] := rfl
@[pyrun] theorem new_EphGALF (call : CallT) (st : St) :
    construct src call n!"EphGALF" [] st =
      M.seq (M.alloc (.inst n!"EphGALF" []) st) (fun a => M.mapList fieldVal (dataFields src n!"EphGALF") >>= fun fs =>
        M.write a (.inst n!"EphGALF" fs) >>= fun _ => M.pure (.ref a)) := rfl
theorem fields_EphGALI : dataFields src n!"EphGALI" =
    [(n!"msgNum", .const (.int 0)),
      (n!"satNum", .const (.int 0)),
      (n!"weekNum", .const (.int 0)),
      (n!"tc", .const (.int 0)),
      (n!"af0", .const (.int 0)),
      (n!"af1", .const (.int 0)),
      (n!"af2", .const (.int 0)),
      (n!"te", .const (.int 0)),
      (n!"delta_n", .const (.int 0)),
      (n!"m0", .const (.int 0)),
      (n!"e", .const (.int 0)),
      (n!"sqrt_a", .const (.int 0)),
      (n!"w", .const (.int 0)),
      (n!"i0", .const (.int 0)),
      (n!"i_dot", .const (.int 0)),
      (n!"omega0", .const (.int 0)),
      (n!"omega_dot", .const (.int 0)),
      (n!"crs", .const (.int 0)),
      (n!"crc", .const (.int 0)),
      (n!"cuc", .const (.int 0)),
      (n!"cus", .const (.int 0)),
      (n!"cic", .const (.int 0)),
      (n!"cis", .const (.int 0)),
      (n!"IODnav", .const (.int 0)),
      (n!"SISA", .const (.int 0)),
      (n!"E5a_BGD", .const (.int 0)),
      (n!"E5b_BGD", .const (.int 0)),
      (n!"E1_SHS", .const (.int 0)),
      (n!"E1_DVS", .const (.int 0)),
      (n!"E5b_SHS", .const (.int 0)),
      (n!"E5b_DVS", .const (.int 0))] := rfl
@[pyrun] theorem new_EphGALI (call : CallT) (st : St) :
    construct src call n!"EphGALI" [] st =
      M.seq (M.alloc (.inst n!"EphGALI" []) st) (fun a => M.mapList fieldVal (dataFields src n!"EphGALI") >>= fun fs =>
        M.write a (.inst n!"EphGALI" fs) >>= fun _ => M.pure (.ref a)) := rfl
theorem fields_EphQZS : dataFields src n!"EphQZS" =
    [(n!"msgNum", .const (.int 0)),
      (n!"satNum", .const (.int 0)),
      (n!"weekNum", .const (.int 0)),
      (n!"tc", .const (.int 0)),
      (n!"af0", .const (.int 0)),
      (n!"af1", .const (.int 0)),
      (n!"af2", .const (.int 0)),
      (n!"te", .const (.int 0)),
      (n!"delta_n", .const (.int 0)),
      (n!"m0", .const (.int 0)),
      (n!"e", .const (.int 0)),
      (n!"sqrt_a", .const (.int 0)),
      (n!"w", .const (.int 0)),
      (n!"i0", .const (.int 0)),
      (n!"i_dot", .const (.int 0)),
      (n!"omega0", .const (.int 0)),
      (n!"omega_dot", .const (.int 0)),
      (n!"crs", .const (.int 0)),
      (n!"crc", .const (.int 0)),
      (n!"cuc", .const (.int 0)),
      (n!"cus", .const (.int 0)),
      (n!"cic", .const (.int 0)),
      (n!"cis", .const (.int 0)),
      (n!"IODE", .const (.int 0)),
      (n!"IODC", .const (.int 0)),
      (n!"Fit", .const (.int 0)),
      (n!"L2_Codes", .const (.int 0)),
      (n!"SVH", .const (.int 0)),
      (n!"URA", .const (.int 0)),
      (n!"TGD", .const (.int 0))] := rfl
@[pyrun] theorem new_EphQZS (call : CallT) (st : St) :
    construct src call n!"EphQZS" [] st =
      M.seq (M.alloc (.inst n!"EphQZS" []) st) (fun a => M.mapList fieldVal (dataFields src n!"EphQZS") >>= fun fs =>
        M.write a (.inst n!"EphQZS" fs) >>= fun _ => M.pure (.ref a)) := rfl
theorem fields_EphBDS : dataFields src n!"EphBDS" =
    [(n!"msgNum", .const (.int 0)),
      (n!"satNum", .const (.int 0)),
      (n!"weekNum", .const (.int 0)),
      (n!"tc", .const (.int 0)),
      (n!"af0", .const (.int 0)),
      (n!"af1", .const (.int 0)),
      (n!"af2", .const (.int 0)),
      (n!"te", .const (.int 0)),
      (n!"delta_n", .const (.int 0)),
      (n!"m0", .const (.int 0)),
      (n!"e", .const (.int 0)),
      (n!"sqrt_a", .const (.int 0)),
      (n!"w", .const (.int 0)),
      (n!"i0", .const (.int 0)),
      (n!"i_dot", .const (.int 0)),
      (n!"omega0", .const (.int 0)),
      (n!"omega_dot", .const (.int 0)),
      (n!"crs", .const (.int 0)),
      (n!"crc", .const (.int 0)),
      (n!"cuc", .const (.int 0)),
      (n!"cus", .const (.int 0)),
      (n!"cic", .const (.int 0)),
      (n!"cis", .const (.int 0)),
      (n!"AODE", .const (.int 0)),
      (n!"AODC", .const (.int 0)),
      (n!"SVH", .const (.int 0)),
      (n!"URAI", .const (.int 0)),
      (n!"TGD1", .const (.int 0)),
      (n!"TGD2", .const (.int 0))] := rfl
@[pyrun] theorem new_EphBDS (call : CallT) (st : St) :
    construct src call n!"EphBDS" [] st =
      M.seq (M.alloc (.inst n!"EphBDS" []) st) (fun a => M.mapList fieldVal (dataFields src n!"EphBDS") >>= fun fs =>
        M.write a (.inst n!"EphBDS" fs) >>= fun _ => M.pure (.ref a)) := rfl
theorem fields_EphGPS : dataFields src n!"EphGPS" =
    [(n!"msgNum", .const (.int 0)),
      (n!"satNum", .const (.int 0)),
      (n!"weekNum", .const (.int 0)),
      (n!"tc", .const (.int 0)),
      (n!"af0", .const (.int 0)),
      (n!"af1", .const (.int 0)),
      (n!"af2", .const (.int 0)),
      (n!"te", .const (.int 0)),
      (n!"delta_n", .const (.int 0)),
      (n!"m0", .const (.int 0)),
      (n!"e", .const (.int 0)),
      (n!"sqrt_a", .const (.int 0)),
      (n!"w", .const (.int 0)),
      (n!"i0", .const (.int 0)),
      (n!"i_dot", .const (.int 0)),
      (n!"omega0", .const (.int 0)),
      (n!"omega_dot", .const (.int 0)),
      (n!"crs", .const (.int 0)),
      (n!"crc", .const (.int 0)),
      (n!"cuc", .const (.int 0)),
      (n!"cus", .const (.int 0)),
      (n!"cic", .const (.int 0)),
      (n!"cis", .const (.int 0)),
      (n!"IODE", .const (.int 0)),
      (n!"IODC", .const (.int 0)),
      (n!"Fit", .const (.int 0)),
      (n!"L2_Codes", .const (.int 0)),
      (n!"L2P_Data", .const (.int 0)),
      (n!"SVH", .const (.int 0)),
      (n!"URA", .const (.int 0)),
      (n!"TGD", .const (.int 0))] := rfl
@[pyrun] theorem new_EphGPS (call : CallT) (st : St) :
    construct src call n!"EphGPS" [] st =
      M.seq (M.alloc (.inst n!"EphGPS" []) st) (fun a => M.mapList fieldVal (dataFields src n!"EphGPS") >>= fun fs =>
        M.write a (.inst n!"EphGPS" fs) >>= fun _ => M.pure (.ref a)) := rfl
theorem fields_EphNAVIC : dataFields src n!"EphNAVIC" =
    [(n!"msgNum", .const (.int 0)),
      (n!"satNum", .const (.int 0)),
      (n!"weekNum", .const (.int 0)),
      (n!"tc", .const (.int 0)),
      (n!"af0", .const (.int 0)),
      (n!"af1", .const (.int 0)),
      (n!"af2", .const (.int 0)),
      (n!"te", .const (.int 0)),
      (n!"delta_n", .const (.int 0)),
      (n!"m0", .const (.int 0)),
      (n!"e", .const (.int 0)),
      (n!"sqrt_a", .const (.int 0)),
      (n!"w", .const (.int 0)),
      (n!"i0", .const (.int 0)),
      (n!"i_dot", .const (.int 0)),
      (n!"omega0", .const (.int 0)),
      (n!"omega_dot", .const (.int 0)),
      (n!"crs", .const (.int 0)),
      (n!"crc", .const (.int 0)),
      (n!"cuc", .const (.int 0)),
      (n!"cus", .const (.int 0)),
      (n!"cic", .const (.int 0)),
      (n!"cis", .const (.int 0)),
      (n!"URA", .const (.int 0)),
      (n!"TGD", .const (.int 0)),
      (n!"IODEC", .const (.int 0))] := rfl
@[pyrun] theorem new_EphNAVIC (call : CallT) (st : St) :
    construct src call n!"EphNAVIC" [] st =
      M.seq (M.alloc (.inst n!"EphNAVIC" []) st) (fun a => M.mapList fieldVal (dataFields src n!"EphNAVIC") >>= fun fs =>
        M.write a (.inst n!"EphNAVIC" fs) >>= fun _ => M.pure (.ref a)) := rfl
theorem fields_EphGLO : dataFields src n!"EphGLO" =
    [(n!"msgNum", .const (.int 0)),
      (n!"satNum", .const (.int 0)),
      (n!"frqSloNum", .const (.int 0)),
      (n!"tk", .const (.int 0)),
      (n!"tb", .const (.int 0)),
      (n!"xn", .const (.int 0)),
      (n!"dotXn", .const (.int 0)),
      (n!"dotDotXn", .const (.int 0)),
      (n!"yn", .const (.int 0)),
      (n!"dotYn", .const (.int 0)),
      (n!"dotDotYn", .const (.int 0)),
      (n!"zn", .const (.int 0)),
      (n!"dotZn", .const (.int 0)),
      (n!"dotDotZn", .const (.int 0)),
      (n!"gamma_n", .const (.int 0)),
      (n!"Cn", .const (.int 0)),
      (n!"BnMSB", .const (.int 0)),
      (n!"AlmHAI", .const (.int 0)),
      (n!"P", .const (.int 0)),
      (n!"P1", .const (.int 0)),
      (n!"P2", .const (.int 0)),
      (n!"P3", .const (.int 0)),
      (n!"P4", .const (.int 0)),
      (n!"ln3", .const (.int 0)),
      (n!"tauN", .const (.int 0)),
      (n!"delta_tauN", .const (.int 0)),
      (n!"En", .const (.int 0)),
      (n!"Ft", .const (.int 0)),
      (n!"Nt", .const (.int 0)),
      (n!"M", .const (.int 0)),
      (n!"auxDataOK", .const (.int 0)),
      (n!"Na", .const (.int 0)),
      (n!"tauC", .const (.int 0)),
      (n!"N4", .const (.int 0)),
      (n!"tauGPS", .const (.int 0)),
      (n!"ln5", .const (.int 0))] := rfl
@[pyrun] theorem new_EphGLO (call : CallT) (st : St) :
    construct src call n!"EphGLO" [] st =
      M.seq (M.alloc (.inst n!"EphGLO" []) st) (fun a => M.mapList fieldVal (dataFields src n!"EphGLO") >>= fun fs =>
        M.write a (.inst n!"EphGLO" fs) >>= fun _ => M.pure (.ref a)) := rfl
theorem fields_BaseRP : dataFields src n!"BaseRP" =
    [(n!"msgNum", .const (.int 0)),
      (n!"bsID", .const (.int 0)),
      (n!"ITRF_Year", .const (.int 0)),
      (n!"GPS_OK", .const (.int 0)),
      (n!"GLO_OK", .const (.int 0)),
      (n!"GAL_OK", .const (.int 0)),
      (n!"isVirtual", .const (.int 0)),
      (n!"refPoint_X", .const (.int 0)),
      (n!"singleOsc", .const (.int 0)),
      (n!"refPoint_Y", .const (.int 0)),
      (n!"QC_bias", .const (.int 0)),
      (n!"refPoint_Z", .const (.int 0))] := rfl
@[pyrun] theorem new_BaseRP (call : CallT) (st : St) :
    construct src call n!"BaseRP" [] st =
      M.seq (M.alloc (.inst n!"BaseRP" []) st) (fun a => M.mapList fieldVal (dataFields src n!"BaseRP") >>= fun fs =>
        M.write a (.inst n!"BaseRP" fs) >>= fun _ => M.pure (.ref a)) := rfl
theorem fields_BaseRPH : dataFields src n!"BaseRPH" =
    [(n!"msgNum", .const (.int 0)),
      (n!"bsID", .const (.int 0)),
      (n!"ITRF_Year", .const (.int 0)),
      (n!"GPS_OK", .const (.int 0)),
      (n!"GLO_OK", .const (.int 0)),
      (n!"GAL_OK", .const (.int 0)),
      (n!"isVirtual", .const (.int 0)),
      (n!"refPoint_X", .const (.int 0)),
      (n!"singleOsc", .const (.int 0)),
      (n!"refPoint_Y", .const (.int 0)),
      (n!"QC_bias", .const (.int 0)),
      (n!"refPoint_Z", .const (.int 0)),
      (n!"height", .const (.int 0))] := rfl
@[pyrun] theorem new_BaseRPH (call : CallT) (st : St) :
    construct src call n!"BaseRPH" [] st =
      M.seq (M.alloc (.inst n!"BaseRPH" []) st) (fun a => M.mapList fieldVal (dataFields src n!"BaseRPH") >>= fun fs =>
        M.write a (.inst n!"BaseRPH" fs) >>= fun _ => M.pure (.ref a)) := rfl
theorem fields_BaseAD : dataFields src n!"BaseAD" =
    [(n!"msgNum", .const (.int 0)),
      (n!"bsID", .const (.int 0)),
      (n!"descrLength", .const (.int 0)),
      (n!"descr", .const (.str "")),
      (n!"setupID", .const (.int 0))] := rfl
@[pyrun] theorem new_BaseAD (call : CallT) (st : St) :
    construct src call n!"BaseAD" [] st =
      M.seq (M.alloc (.inst n!"BaseAD" []) st) (fun a => M.mapList fieldVal (dataFields src n!"BaseAD") >>= fun fs =>
        M.write a (.inst n!"BaseAD" fs) >>= fun _ => M.pure (.ref a)) := rfl
theorem fields_BaseADSN : dataFields src n!"BaseADSN" =
    [(n!"msgNum", .const (.int 0)),
      (n!"bsID", .const (.int 0)),
      (n!"descrLength", .const (.int 0)),
      (n!"descr", .const (.str "")),
      (n!"setupID", .const (.int 0)),
      (n!"serialNumberLength", .const (.int 0)),
      (n!"serialNumber", .const (.str ""))] := rfl
@[pyrun] theorem new_BaseADSN (call : CallT) (st : St) :
    construct src call n!"BaseADSN" [] st =
      M.seq (M.alloc (.inst n!"BaseADSN" []) st) (fun a => M.mapList fieldVal (dataFields src n!"BaseADSN") >>= fun fs =>
        M.write a (.inst n!"BaseADSN" fs) >>= fun _ => M.pure (.ref a)) := rfl
theorem fields_BaseADSNRC : dataFields src n!"BaseADSNRC" =
    [(n!"msgNum", .const (.int 0)),
      (n!"bsID", .const (.int 0)),
      (n!"descrLength", .const (.int 0)),
      (n!"descr", .const (.str "")),
      (n!"setupID", .const (.int 0)),
      (n!"serialNumberLength", .const (.int 0)),
      (n!"serialNumber", .const (.str "")),
      (n!"rcvDescriptorLength", .const (.int 0)),
      (n!"rcvDescriptor", .const (.str "")),
      (n!"rcvFWVersionLength", .const (.int 0)),
      (n!"rcvFWVersion", .const (.str "")),
      (n!"rcvSerNumLength", .const (.int 0)),
      (n!"rcvSerNum", .const (.str ""))] := rfl
@[pyrun] theorem new_BaseADSNRC (call : CallT) (st : St) :
    construct src call n!"BaseADSNRC" [] st =
      M.seq (M.alloc (.inst n!"BaseADSNRC" []) st) (fun a => M.mapList fieldVal (dataFields src n!"BaseADSNRC") >>= fun fs =>
        M.write a (.inst n!"BaseADSNRC" fs) >>= fun _ => M.pure (.ref a)) := rfl
theorem fields_BaseSPitem : dataFields src n!"BaseSPitem" =
    [(n!"ID", .const (.int 0)),
      (n!"isPeriodic", .const (.int 0)),
      (n!"period", .const (.int 0))] := rfl
@[pyrun] theorem new_BaseSPitem (call : CallT) (st : St) :
    construct src call n!"BaseSPitem" [] st =
      M.seq (M.alloc (.inst n!"BaseSPitem" []) st) (fun a => M.mapList fieldVal (dataFields src n!"BaseSPitem") >>= fun fs =>
        M.write a (.inst n!"BaseSPitem" fs) >>= fun _ => M.pure (.ref a)) := rfl
theorem fields_BaseSP : dataFields src n!"BaseSP" =
    [(n!"msgNum", .const (.int 0)),
      (n!"bsID", .const (.int 0)),
      (n!"modifiedJulianDay", .const (.int 0)),
      (n!"daySec", .const (.int 0)),
      (n!"Nm", .const (.int 0)),
      (n!"leapSec", .const (.int 0)),
      (n!"shedule", .emptyDict)] := rfl
@[pyrun] theorem new_BaseSP (call : CallT) (st : St) :
    construct src call n!"BaseSP" [] st =
      M.seq (M.alloc (.inst n!"BaseSP" []) st) (fun a => M.mapList fieldVal (dataFields src n!"BaseSP") >>= fun fs =>
        M.write a (.inst n!"BaseSP" fs) >>= fun _ => M.pure (.ref a)) := rfl
theorem fields_BaseTS : dataFields src n!"BaseTS" =
    [(n!"msgNum", .const (.int 0)),
      (n!"bsID", .const (.int 0)),
      (n!"modifiedJulianDay", .const (.int 0)),
      (n!"daySec", .const (.int 0)),
      (n!"charNum", .const (.int 0)),
      (n!"unitsNum", .const (.int 0)),
      (n!"message", .const (.str ""))] := rfl
@[pyrun] theorem new_BaseTS (call : CallT) (st : St) :
    construct src call n!"BaseTS" [] st =
      M.seq (M.alloc (.inst n!"BaseTS" []) st) (fun a => M.mapList fieldVal (dataFields src n!"BaseTS") >>= fun fs =>
        M.write a (.inst n!"BaseTS" fs) >>= fun _ => M.pure (.ref a)) := rfl
theorem fields_BaseGLBS : dataFields src n!"BaseGLBS" =
    [(n!"msgNum", .const (.int 0)),
      (n!"bsID", .const (.int 0)),
      (n!"isCorrected", .const (.int 0)),
      (n!"validity", .emptyDict),
      (n!"correction", .emptyDict)] := rfl
@[pyrun] theorem new_BaseGLBS (call : CallT) (st : St) :
    construct src call n!"BaseGLBS" [] st =
      M.seq (M.alloc (.inst n!"BaseGLBS" []) st) (fun a => M.mapList fieldVal (dataFields src n!"BaseGLBS") >>= fun fs =>
        M.write a (.inst n!"BaseGLBS" fs) >>= fun _ => M.call call n!"BaseGLBS.__post_init__" [.ref a] >>= fun _ => M.pure (.ref a)) := rfl
@[pyrun] theorem new_ObservablesMSM (call : CallT) (args : List Val) (st : St) :
    construct src call n!"ObservablesMSM" args st =
      M.seq (M.alloc (.inst n!"ObservablesMSM" []) st) (fun a => M.call call n!"ObservablesMSM.__init__" (.ref a :: args) >>= fun _ => M.pure (.ref a)) := rfl
@[pyrun] theorem new_Attributes (call : CallT) (args : List Val) (st : St) :
    construct src call n!"Attributes" args st =
      M.seq (M.alloc (.inst n!"Attributes" []) st) (fun a => M.call call n!"Attributes.__init__" (.ref a :: args) >>= fun _ => M.pure (.ref a)) := rfl
@[pyrun] theorem new_ObservablesHdrMSM (call : CallT) (args : List Val) (st : St) :
    construct src call n!"_ObservablesHdrMSM" args st =
      M.seq (M.alloc (.inst n!"_ObservablesHdrMSM" []) st) (fun a => M.call call n!"_ObservablesHdrMSM.__init__" (.ref a :: args) >>= fun _ => M.pure (.ref a)) := rfl
@[pyrun] theorem new_ObservablesObs (call : CallT) (args : List Val) (st : St) :
    construct src call n!"_ObservablesObs" args st =
      M.seq (M.alloc (.inst n!"_ObservablesObs" []) st) (fun a => M.call call n!"_ObservablesObs.__init__" (.ref a :: args) >>= fun _ => M.pure (.ref a)) := rfl
@[pyrun] theorem new_ObservablesAuxMSM (call : CallT) (args : List Val) (st : St) :
    construct src call n!"_ObservablesAuxMSM" args st =
      M.seq (M.alloc (.inst n!"_ObservablesAuxMSM" []) st) (fun a => M.call call n!"_ObservablesAuxMSM.__init__" (.ref a :: args) >>= fun _ => M.pure (.ref a)) := rfl
@[pyrun] theorem new_ObservablesAuxLeg (call : CallT) (args : List Val) (st : St) :
    construct src call n!"_ObservablesAuxLeg" args st =
      M.seq (M.alloc (.inst n!"_ObservablesAuxLeg" []) st) (fun a => M.call call n!"_ObservablesAuxLeg.__init__" (.ref a :: args) >>= fun _ => M.pure (.ref a)) := rfl
@[pyrun] theorem new_BareObservablesHdrMSM (call : CallT) (args : List Val) (st : St) :
    construct src call n!"_BareObservablesHdrMSM" args st =
      M.seq (M.alloc (.inst n!"_BareObservablesHdrMSM" []) st) (fun a => M.call call n!"_BareObservablesHdrMSM.__init__" (.ref a :: args) >>= fun _ => M.pure (.ref a)) := rfl
@[pyrun] theorem new_BareObservablesSatDataMSM4567 (call : CallT) (args : List Val) (st : St) :
    construct src call n!"_BareObservablesSatDataMSM4567" args st =
      M.seq (M.alloc (.inst n!"_BareObservablesSatDataMSM4567" []) st) (fun a => M.call call n!"_BareObservablesSatDataMSM4567.__init__" (.ref a :: args) >>= fun _ => M.pure (.ref a)) := rfl
@[pyrun] theorem new_BareObservablesSignalDataMSM4567 (call : CallT) (args : List Val) (st : St) :
    construct src call n!"_BareObservablesSignalDataMSM4567" args st =
      M.seq (M.alloc (.inst n!"_BareObservablesSignalDataMSM4567" []) st) (fun a => M.call call n!"_BareObservablesSignalDataMSM4567.__init__" (.ref a :: args) >>= fun _ => M.pure (.ref a)) := rfl
@[pyrun] theorem new_BareObservablesMSM4567 (call : CallT) (args : List Val) (st : St) :
    construct src call n!"BareObservablesMSM4567" args st =
      M.seq (M.alloc (.inst n!"BareObservablesMSM4567" []) st) (fun a => M.call call n!"BareObservablesMSM4567.__init__" (.ref a :: args) >>= fun _ => M.pure (.ref a)) := rfl
@[pyrun] theorem new_BareObservablesSatDataMSM123 (call : CallT) (args : List Val) (st : St) :
    construct src call n!"_BareObservablesSatDataMSM123" args st =
      M.seq (M.alloc (.inst n!"_BareObservablesSatDataMSM123" []) st) (fun a => M.call call n!"_BareObservablesSatDataMSM123.__init__" (.ref a :: args) >>= fun _ => M.pure (.ref a)) := rfl
@[pyrun] theorem new_BareObservablesSignalDataMSM123 (call : CallT) (args : List Val) (st : St) :
    construct src call n!"_BareObservablesSignalDataMSM123" args st =
      M.seq (M.alloc (.inst n!"_BareObservablesSignalDataMSM123" []) st) (fun a => M.call call n!"_BareObservablesSignalDataMSM123.__init__" (.ref a :: args) >>= fun _ => M.pure (.ref a)) := rfl
@[pyrun] theorem new_BareObservablesMSM123 (call : CallT) (args : List Val) (st : St) :
    construct src call n!"BareObservablesMSM123" args st =
      M.seq (M.alloc (.inst n!"BareObservablesMSM123" []) st) (fun a => M.call call n!"BareObservablesMSM123.__init__" (.ref a :: args) >>= fun _ => M.pure (.ref a)) := rfl
@[pyrun] theorem new_ExceptionEphemerisDecoder (call : CallT) (args : List Val) (st : St) :
    construct src call n!"ExceptionEphemerisDecoder" args st = (.ok (.exc n!"ExceptionEphemerisDecoder"), st) := rfl
@[pyrun] theorem new_EphemerisDecoder (call : CallT) (args : List Val) (st : St) :
    construct src call n!"EphemerisDecoder" args st =
      M.seq (M.alloc (.inst n!"EphemerisDecoder" []) st) (fun a => M.call call n!"EphemerisDecoder.__init__" (.ref a :: args) >>= fun _ => M.pure (.ref a)) := rfl
@[pyrun] theorem new_SubdecoderEph (call : CallT) (args : List Val) (st : St) :
    construct src call n!"SubdecoderEph" args st =
      M.seq (M.alloc (.inst n!"SubdecoderEph" []) st) (fun a => M.call call n!"SubdecoderEph.__init__" (.ref a :: args) >>= fun _ => M.pure (.ref a)) := rfl
@[pyrun] theorem new_ExceptionBaseStationDataDecoder (call : CallT) (args : List Val) (st : St) :
    construct src call n!"ExceptionBaseStationDataDecoder" args st = (.ok (.exc n!"ExceptionBaseStationDataDecoder"), st) := rfl
@[pyrun] theorem new_BaseStationDataDecoder (call : CallT) (args : List Val) (st : St) :
    construct src call n!"BaseStationDataDecoder" args st =
      M.seq (M.alloc (.inst n!"BaseStationDataDecoder" []) st) (fun a => M.call call n!"BaseStationDataDecoder.__init__" (.ref a :: args) >>= fun _ => M.pure (.ref a)) := rfl
@[pyrun] theorem new_SubdecoderBaseStationData (call : CallT) (args : List Val) (st : St) :
    construct src call n!"SubdecoderBaseStationData" args st =
      M.seq (M.alloc (.inst n!"SubdecoderBaseStationData" []) st) (fun a => M.call call n!"SubdecoderBaseStationData.__init__" (.ref a :: args) >>= fun _ => M.pure (.ref a)) := rfl
@[pyrun] theorem new_ExceptionBareDataStructure (call : CallT) (args : List Val) (st : St) :
    construct src call n!"ExceptionBareDataStructure" args st = (.ok (.exc n!"ExceptionBareDataStructure"), st) := rfl
@[pyrun] theorem new_BareObservablesMSM17Decoder (call : CallT) (args : List Val) (st : St) :
    construct src call n!"BareObservablesMSM17Decoder" args st =
      M.seq (M.alloc (.inst n!"BareObservablesMSM17Decoder" []) st) (fun a => M.call call n!"BareObservablesMSM17Decoder.__init__" (.ref a :: args) >>= fun _ => M.pure (.ref a)) := rfl
@[pyrun] theorem new_Bare2Scaled (call : CallT) (args : List Val) (st : St) :
    construct src call n!"Bare2Scaled" args st =
      M.seq (M.alloc (.inst n!"Bare2Scaled" []) st) (fun a => M.call call n!"Bare2Scaled.__init__" (.ref a :: args) >>= fun _ => M.pure (.ref a)) := rfl
@[pyrun] theorem new_SubdecoderMSM4567 (call : CallT) (args : List Val) (st : St) :
    construct src call n!"SubdecoderMSM4567" args st =
      M.seq (M.alloc (.inst n!"SubdecoderMSM4567" []) st) (fun a => M.call call n!"SubdecoderMSM4567.__init__" (.ref a :: args) >>= fun _ => M.pure (.ref a)) := rfl
@[pyrun] theorem new_SubdecoderMSM123 (call : CallT) (args : List Val) (st : St) :
    construct src call n!"SubdecoderMSM123" args st =
      M.seq (M.alloc (.inst n!"SubdecoderMSM123" []) st) (fun a => M.call call n!"SubdecoderMSM123.__init__" (.ref a :: args) >>= fun _ => M.pure (.ref a)) := rfl
@[pyrun] theorem new_SubDecoderInterface (call : CallT) (args : List Val) (st : St) :
    construct src call n!"SubDecoderInterface" args st =
      M.seq (M.alloc (.inst n!"SubDecoderInterface" []) st) (fun a => M.call call n!"SubDecoderInterface.__init__" (.ref a :: args) >>= fun _ => M.pure (.ref a)) := rfl
@[pyrun] theorem new_ExceptionDecoderDecode (call : CallT) (args : List Val) (st : St) :
    construct src call n!"ExceptionDecoderDecode" args st = (.ok (.exc n!"ExceptionDecoderDecode"), st) := rfl
@[pyrun] theorem new_DecoderTop (call : CallT) (args : List Val) (st : St) :
    construct src call n!"DecoderTop" args st =
      M.seq (M.alloc (.inst n!"DecoderTop" []) st) (fun a => M.call call n!"DecoderTop.__init__" (.ref a :: args) >>= fun _ => M.pure (.ref a)) := rfl
@[pyrun] theorem new_JSONControls (call : CallT) (args : List Val) (st : St) :
    construct src call n!"JSONControls" args st =
      M.seq (M.alloc (.inst n!"JSONControls" []) st) (fun a => M.call call n!"JSONControls.__init__" (.ref a :: args) >>= fun _ => M.pure (.ref a)) := rfl
@[pyrun] theorem new_JSONCore (call : CallT) (args : List Val) (st : St) :
    construct src call n!"JSONCore" args st =
      M.seq (M.alloc (.inst n!"JSONCore" []) st) (fun a => M.call call n!"JSONCore.__init__" (.ref a :: args) >>= fun _ => M.pure (.ref a)) := rfl
@[pyrun] theorem new_MargoControls (call : CallT) (args : List Val) (st : St) :
    construct src call n!"MargoControls" args st =
      M.seq (M.alloc (.inst n!"MargoControls" []) st) (fun a => M.call call n!"MargoControls.__init__" (.ref a :: args) >>= fun _ => M.pure (.ref a)) := rfl
@[pyrun] theorem new_MargoCore (call : CallT) (args : List Val) (st : St) :
    construct src call n!"MargoCore" args st =
      M.seq (M.alloc (.inst n!"MargoCore" []) st) (fun a => M.call call n!"MargoCore.__init__" (.ref a :: args) >>= fun _ => M.pure (.ref a)) := rfl
@[pyrun] theorem new_AssertionError (call : CallT) (args : List Val) (st : St) :
    construct src call n!"AssertionError" args st = (.ok (.exc n!"AssertionError"), st) := rfl
@[pyrun] theorem new_NotImplementedError (call : CallT) (args : List Val) (st : St) :
    construct src call n!"NotImplementedError" args st = (.ok (.exc n!"NotImplementedError"), st) := rfl

end Look
end PyCore
end Verif
