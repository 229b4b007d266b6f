import Verif.Source.Bits
import Verif.Source.CRC24Q
import Verif.Source.RtcmUtilities
import Verif.Source.DataClassMethods
import Verif.Source.Ephemeris
import Verif.Source.BaseStation
import Verif.Source.Observables
import Verif.Source.RtcmEph
import Verif.Source.RtcmBase
import Verif.Source.RtcmMsm
import Verif.Source.DecoderTop
import Verif.Source.JsonPrinter
import Verif.Source.MargoPrinter

/-!
# The program

Generated by fidelity/embed.py.
-/

namespace Verif
namespace PyCore

open Src

/-- The functions, classes and global names of the modules in Verif/Source. -/
def src : Prog where
  fns := [(n!"ExceptionBitsError.process", fn_ExceptionBitsError_process),
    (n!"Bits.getbitu", fn_Bits_getbitu),
    (n!"Bits.getbits", fn_Bits_getbits),
    (n!"Bits.revbitu", fn_Bits_revbitu),
    (n!"Bits.revbits", fn_Bits_revbits),
    (n!"CRC24Q.calc", fn_CRC24Q_calc),
    (n!"getSubset", fn_getSubset),
    (n!"LEGT.legacy_subset", fn_LEGT_legacy_subset),
    (n!"EPHT.eph_subset", fn_EPHT_eph_subset),
    (n!"MSMT.rnx_lit", fn_MSMT_rnx_lit),
    (n!"MSMT.crr_frq", fn_MSMT_crr_frq),
    (n!"MSMT.msm_subset", fn_MSMT_msm_subset),
    (n!"MSMT.unpack_clk_steer", fn_MSMT_unpack_clk_steer),
    (n!"MSMT.unpack_clk_ext", fn_MSMT_unpack_clk_ext),
    (n!"MSMT.unpack_smth_indc", fn_MSMT_unpack_smth_indc),
    (n!"MSMT.unpack_smth_intr", fn_MSMT_unpack_smth_intr),
    (n!"MSMT.unpack_tlock10", fn_MSMT_unpack_tlock10),
    (n!"MSMT.unpack_tlock4", fn_MSMT_unpack_tlock4),
    (n!"MSMT.isDF405_OK", fn_MSMT_isDF405_OK),
    (n!"MSMT.isDF406_OK", fn_MSMT_isDF406_OK),
    (n!"MSMT.isDF400_OK", fn_MSMT_isDF400_OK),
    (n!"MSMT.isDF401_OK", fn_MSMT_isDF401_OK),
    (n!"MSMT.isDF404_OK", fn_MSMT_isDF404_OK),
    (n!"DataClassMethods.items", fn_DataClassMethods_items),
    (n!"DataClassMethods.copy", fn_DataClassMethods_copy),
    (n!"DataClassMethods.deepcopy", fn_DataClassMethods_deepcopy),
    (n!"BaseGLBS.__post_init__", fn_BaseGLBS_P_post_init_P),
    (n!"ObservablesMSM.__init__", fn_ObservablesMSM_P_init_P),
    (n!"Attributes.__init__", fn_Attributes_P_init_P),
    (n!"Attributes.clear", fn_Attributes_clear),
    (n!"Attributes.is_msm7", fn_Attributes_is_msm7),
    (n!"Attributes.is_msm6", fn_Attributes_is_msm6),
    (n!"Attributes.is_msm5", fn_Attributes_is_msm5),
    (n!"Attributes.is_msm4", fn_Attributes_is_msm4),
    (n!"Attributes.is_msm3", fn_Attributes_is_msm3),
    (n!"Attributes.is_msm2", fn_Attributes_is_msm2),
    (n!"Attributes.is_msm1", fn_Attributes_is_msm1),
    (n!"_ObservablesHdrMSM.__init__", fn_ObservablesHdrMSM_P_init_P),
    (n!"_ObservablesObs.__init__", fn_ObservablesObs_P_init_P),
    (n!"_ObservablesAuxMSM.__init__", fn_ObservablesAuxMSM_P_init_P),
    (n!"_ObservablesAuxLeg.__init__", fn_ObservablesAuxLeg_P_init_P),
    (n!"_BareObservablesHdrMSM.__init__", fn_BareObservablesHdrMSM_P_init_P),
    (n!"_BareObservablesHdrMSM.clear", fn_BareObservablesHdrMSM_clear),
    (n!"_BareObservablesSatDataMSM4567.__init__", fn_BareObservablesSatDataMSM4567_P_init_P),
    (n!"_BareObservablesSatDataMSM4567.clear", fn_BareObservablesSatDataMSM4567_clear),
    (n!"_BareObservablesSignalDataMSM4567.__init__", fn_BareObservablesSignalDataMSM4567_P_init_P),
    (n!"_BareObservablesSignalDataMSM4567.clear", fn_BareObservablesSignalDataMSM4567_clear),
    (n!"BareObservablesMSM4567.__init__", fn_BareObservablesMSM4567_P_init_P),
    (n!"BareObservablesMSM4567.clear", fn_BareObservablesMSM4567_clear),
    (n!"BareObservablesMSM4567.time", fn_BareObservablesMSM4567_time),
    (n!"BareObservablesMSM4567.day", fn_BareObservablesMSM4567_day),
    (n!"_BareObservablesSatDataMSM123.__init__", fn_BareObservablesSatDataMSM123_P_init_P),
    (n!"_BareObservablesSatDataMSM123.clear", fn_BareObservablesSatDataMSM123_clear),
    (n!"_BareObservablesSignalDataMSM123.__init__", fn_BareObservablesSignalDataMSM123_P_init_P),
    (n!"_BareObservablesSignalDataMSM123.clear", fn_BareObservablesSignalDataMSM123_clear),
    (n!"BareObservablesMSM123.__init__", fn_BareObservablesMSM123_P_init_P),
    (n!"BareObservablesMSM123.clear", fn_BareObservablesMSM123_clear),
    (n!"BareObservablesMSM123.time", fn_BareObservablesMSM123_time),
    (n!"BareObservablesMSM123.day", fn_BareObservablesMSM123_day),
    (n!"EphemerisDecoder.__init__", fn_EphemerisDecoder_P_init_P),
    (n!"EphemerisDecoder.get_msg_num", fn_EphemerisDecoder_get_msg_num),
    (n!"EphemerisDecoder.__length_check", fn_EphemerisDecoder_P_length_check),
    (n!"EphemerisDecoder.__decode1019", fn_EphemerisDecoder_P_decode1019),
    (n!"EphemerisDecoder.__scale1019.ura", fn_EphemerisDecoder_P_scale1019_ura),
    (n!"EphemerisDecoder.__scale1019", fn_EphemerisDecoder_P_scale1019),
    (n!"EphemerisDecoder.getbitS", fn_EphemerisDecoder_getbitS),
    (n!"EphemerisDecoder.__decode1020", fn_EphemerisDecoder_P_decode1020),
    (n!"EphemerisDecoder.__scale1020", fn_EphemerisDecoder_P_scale1020),
    (n!"EphemerisDecoder.__decode1041", fn_EphemerisDecoder_P_decode1041),
    (n!"EphemerisDecoder.__scale1041", fn_EphemerisDecoder_P_scale1041),
    (n!"EphemerisDecoder.__decode1042", fn_EphemerisDecoder_P_decode1042),
    (n!"EphemerisDecoder.__scale1042", fn_EphemerisDecoder_P_scale1042),
    (n!"EphemerisDecoder.__decode1046", fn_EphemerisDecoder_P_decode1046),
    (n!"EphemerisDecoder.__scale1046", fn_EphemerisDecoder_P_scale1046),
    (n!"EphemerisDecoder.__decode1045", fn_EphemerisDecoder_P_decode1045),
    (n!"EphemerisDecoder.__scale1045", fn_EphemerisDecoder_P_scale1045),
    (n!"EphemerisDecoder.__decode1044", fn_EphemerisDecoder_P_decode1044),
    (n!"EphemerisDecoder.__scale1044", fn_EphemerisDecoder_P_scale1044),
    (n!"EphemerisDecoder.__decode", fn_EphemerisDecoder_P_decode),
    (n!"EphemerisDecoder.scale", fn_EphemerisDecoder_scale),
    (n!"EphemerisDecoder.decode", fn_EphemerisDecoder_decode),
    (n!"SubdecoderEph.__init__", fn_SubdecoderEph_P_init_P),
    (n!"SubdecoderEph.decode", fn_SubdecoderEph_decode),
    (n!"BaseStationDataDecoder.__init__", fn_BaseStationDataDecoder_P_init_P),
    (n!"BaseStationDataDecoder.get_msg_num", fn_BaseStationDataDecoder_get_msg_num),
    (n!"BaseStationDataDecoder.__length_check", fn_BaseStationDataDecoder_P_length_check),
    (n!"BaseStationDataDecoder.__decode10056", fn_BaseStationDataDecoder_P_decode10056),
    (n!"BaseStationDataDecoder.__scale10056", fn_BaseStationDataDecoder_P_scale10056),
    (n!"BaseStationDataDecoder.__decode10078_1033", fn_BaseStationDataDecoder_P_decode10078_1033),
    (n!"BaseStationDataDecoder.__scale10078_1033", fn_BaseStationDataDecoder_P_scale10078_1033),
    (n!"BaseStationDataDecoder.__decode1013", fn_BaseStationDataDecoder_P_decode1013),
    (n!"BaseStationDataDecoder.__scale1013", fn_BaseStationDataDecoder_P_scale1013),
    (n!"BaseStationDataDecoder.__decode1029", fn_BaseStationDataDecoder_P_decode1029),
    (n!"BaseStationDataDecoder.__scale1029", fn_BaseStationDataDecoder_P_scale1029),
    (n!"BaseStationDataDecoder.__decode1230", fn_BaseStationDataDecoder_P_decode1230),
    (n!"BaseStationDataDecoder.__scale1230", fn_BaseStationDataDecoder_P_scale1230),
    (n!"BaseStationDataDecoder.__decode", fn_BaseStationDataDecoder_P_decode),
    (n!"BaseStationDataDecoder.scale", fn_BaseStationDataDecoder_scale),
    (n!"BaseStationDataDecoder.decode", fn_BaseStationDataDecoder_decode),
    (n!"SubdecoderBaseStationData.__init__", fn_SubdecoderBaseStationData_P_init_P),
    (n!"SubdecoderBaseStationData.decode", fn_SubdecoderBaseStationData_decode),
    (n!"BareObservablesMSM17Decoder.__init__", fn_BareObservablesMSM17Decoder_P_init_P),
    (n!"BareObservablesMSM17Decoder.ready", fn_BareObservablesMSM17Decoder_ready),
    (n!"BareObservablesMSM17Decoder.bare_data", fn_BareObservablesMSM17Decoder_bare_data),
    (n!"BareObservablesMSM17Decoder.decode", fn_BareObservablesMSM17Decoder_decode),
    (n!"BareObservablesMSM17Decoder.get_msg_num$undecorated", fn_BareObservablesMSM17Decoder_get_msg_num_undecorated),
    (n!"BareObservablesMSM17Decoder.get_msg_num", fn_BareObservablesMSM17Decoder_get_msg_num),
    (n!"BareObservablesMSM17Decoder.__extract_hdr", fn_BareObservablesMSM17Decoder_P_extract_hdr),
    (n!"BareObservablesMSM17Decoder.__extract_observables4567", fn_BareObservablesMSM17Decoder_P_extract_observables4567),
    (n!"BareObservablesMSM17Decoder.__extract_observables123", fn_BareObservablesMSM17Decoder_P_extract_observables123),
    (n!"Bare2Scaled.__init__", fn_Bare2Scaled_P_init_P),
    (n!"Bare2Scaled.convert", fn_Bare2Scaled_convert),
    (n!"Bare2Scaled._convert_obs47", fn_Bare2Scaled_convert_obs47),
    (n!"Bare2Scaled._convert_obs13", fn_Bare2Scaled_convert_obs13),
    (n!"decode_msm17", fn_decode_msm17),
    (n!"SubdecoderMSM4567.__init__", fn_SubdecoderMSM4567_P_init_P),
    (n!"SubdecoderMSM4567.decode", fn_SubdecoderMSM4567_decode),
    (n!"SubdecoderMSM123.__init__", fn_SubdecoderMSM123_P_init_P),
    (n!"SubdecoderMSM123.decode", fn_SubdecoderMSM123_decode),
    (n!"SubDecoderInterface.__make_MSM47O_spec", fn_SubDecoderInterface_P_make_MSM47O_spec),
    (n!"SubDecoderInterface.__make_MSM13O_spec", fn_SubDecoderInterface_P_make_MSM13O_spec),
    (n!"SubDecoderInterface.__make_EPH_spec", fn_SubDecoderInterface_P_make_EPH_spec),
    (n!"SubDecoderInterface.__make_BASE_spec", fn_SubDecoderInterface_P_make_BASE_spec),
    (n!"SubDecoderInterface.__make_LEGO_spec", fn_SubDecoderInterface_P_make_LEGO_spec),
    (n!"SubDecoderInterface.default_decode", fn_SubDecoderInterface_default_decode),
    (n!"SubDecoderInterface.__init__", fn_SubDecoderInterface_P_init_P),
    (n!"DecoderTop.__init__", fn_DecoderTop_P_init_P),
    (n!"DecoderTop.register_decoder", fn_DecoderTop_register_decoder),
    (n!"DecoderTop.decode$undecorated", fn_DecoderTop_decode_undecorated),
    (n!"DecoderTop.decode", fn_DecoderTop_decode),
    (n!"DecoderTop.catch_message", fn_DecoderTop_catch_message),
    (n!"DecoderTop.__rebase_to_D3", fn_DecoderTop_P_rebase_to_D3),
    (n!"DecoderTop.parse_errors", fn_DecoderTop_parse_errors),
    (n!"DecoderTop.dec_errors", fn_DecoderTop_dec_errors),
    (n!"DecoderTop.dec_attempts", fn_DecoderTop_dec_attempts),
    (n!"DecoderTop.mnum$undecorated", fn_DecoderTop_mnum_undecorated),
    (n!"DecoderTop.mnum", fn_DecoderTop_mnum),
    (n!"DecoderTop.mlen$undecorated", fn_DecoderTop_mlen_undecorated),
    (n!"DecoderTop.mlen", fn_DecoderTop_mlen),
    (n!"DecoderTop.mcrc$undecorated", fn_DecoderTop_mcrc_undecorated),
    (n!"DecoderTop.mcrc", fn_DecoderTop_mcrc),
    (n!"JSONControls.__init__", fn_JSONControls_P_init_P),
    (n!"JSONCore.__init__", fn_JSONCore_P_init_P),
    (n!"JSONCore.ObservablesMSMtoPrintBuffer", fn_JSONCore_ObservablesMSMtoPrintBuffer),
    (n!"JSONCore.BareObservablesMSMtoPrintBuffer", fn_JSONCore_BareObservablesMSMtoPrintBuffer),
    (n!"JSONCore.dataClassToPrintBuffer", fn_JSONCore_dataClassToPrintBuffer),
    (n!"MargoControls.__init__", fn_MargoControls_P_init_P),
    (n!"MargoCore.__init__", fn_MargoCore_P_init_P),
    (n!"MargoCore.literals", fn_MargoCore_literals),
    (n!"MargoCore.utc_shift", fn_MargoCore_utc_shift),
    (n!"MargoCore.HC_EN", fn_MargoCore_HC_EN),
    (n!"MargoCore.LT_EN", fn_MargoCore_LT_EN),
    (n!"MargoCore.DIRNAME", fn_MargoCore_DIRNAME),
    (n!"MargoCore.GNSSTUPLE", fn_MargoCore_GNSSTUPLE),
    (n!"MargoCore.FORMAT", fn_MargoCore_FORMAT),
    (n!"MargoCore.MARGO_FILE_ID", fn_MargoCore_MARGO_FILE_ID),
    (n!"MargoCore.MAX_SATS", fn_MargoCore_MAX_SATS),
    (n!"MargoCore.make_obs_file_name", fn_MargoCore_make_obs_file_name),
    (n!"MargoCore.conv_to_gps_time", fn_MargoCore_conv_to_gps_time),
    (n!"MargoCore.make_crr_frq", fn_MargoCore_make_crr_frq),
    (n!"MargoCore.make_lambdas", fn_MargoCore_make_lambdas),
    (n!"MargoCore.ObservablesMSMtoPrintBuffer", fn_MargoCore_ObservablesMSMtoPrintBuffer)]
  classes := [(n!"ExceptionBitsError", cls_ExceptionBitsError),
    (n!"Bits", cls_Bits),
    (n!"CRC24Q", cls_CRC24Q),
    (n!"LEGT", cls_LEGT),
    (n!"EPHT", cls_EPHT),
    (n!"MSMT", cls_MSMT),
    (n!"DataClassMethods", cls_DataClassMethods),
    (n!"EphHdr", cls_EphHdr),
    (n!"ClockBias", cls_ClockBias),
    (n!"Keplerians", cls_Keplerians),
    (n!"EphGALF", cls_EphGALF),
    (n!"EphGALI", cls_EphGALI),
    (n!"EphQZS", cls_EphQZS),
    (n!"EphBDS", cls_EphBDS),
    (n!"EphGPS", cls_EphGPS),
    (n!"EphNAVIC", cls_EphNAVIC),
    (n!"EphGLO", cls_EphGLO),
    (n!"BaseRP", cls_BaseRP),
    (n!"BaseRPH", cls_BaseRPH),
    (n!"BaseAD", cls_BaseAD),
    (n!"BaseADSN", cls_BaseADSN),
    (n!"BaseADSNRC", cls_BaseADSNRC),
    (n!"BaseSPitem", cls_BaseSPitem),
    (n!"BaseSP", cls_BaseSP),
    (n!"BaseTS", cls_BaseTS),
    (n!"BaseGLBS", cls_BaseGLBS),
    (n!"ObservablesMSM", cls_ObservablesMSM),
    (n!"Attributes", cls_Attributes),
    (n!"_ObservablesHdrMSM", cls_ObservablesHdrMSM),
    (n!"_ObservablesObs", cls_ObservablesObs),
    (n!"_ObservablesAuxMSM", cls_ObservablesAuxMSM),
    (n!"_ObservablesAuxLeg", cls_ObservablesAuxLeg),
    (n!"_BareObservablesHdrMSM", cls_BareObservablesHdrMSM),
    (n!"_BareObservablesSatDataMSM4567", cls_BareObservablesSatDataMSM4567),
    (n!"_BareObservablesSignalDataMSM4567", cls_BareObservablesSignalDataMSM4567),
    (n!"BareObservablesMSM4567", cls_BareObservablesMSM4567),
    (n!"_BareObservablesSatDataMSM123", cls_BareObservablesSatDataMSM123),
    (n!"_BareObservablesSignalDataMSM123", cls_BareObservablesSignalDataMSM123),
    (n!"BareObservablesMSM123", cls_BareObservablesMSM123),
    (n!"ExceptionEphemerisDecoder", cls_ExceptionEphemerisDecoder),
    (n!"EphemerisDecoder", cls_EphemerisDecoder),
    (n!"SubdecoderEph", cls_SubdecoderEph),
    (n!"ExceptionBaseStationDataDecoder", cls_ExceptionBaseStationDataDecoder),
    (n!"BaseStationDataDecoder", cls_BaseStationDataDecoder),
    (n!"SubdecoderBaseStationData", cls_SubdecoderBaseStationData),
    (n!"ExceptionBareDataStructure", cls_ExceptionBareDataStructure),
    (n!"BareObservablesMSM17Decoder", cls_BareObservablesMSM17Decoder),
    (n!"Bare2Scaled", cls_Bare2Scaled),
    (n!"SubdecoderMSM4567", cls_SubdecoderMSM4567),
    (n!"SubdecoderMSM123", cls_SubdecoderMSM123),
    (n!"SubDecoderInterface", cls_SubDecoderInterface),
    (n!"ExceptionDecoderDecode", cls_ExceptionDecoderDecode),
    (n!"DecoderTop", cls_DecoderTop),
    (n!"JSONControls", cls_JSONControls),
    (n!"JSONCore", cls_JSONCore),
    (n!"MargoControls", cls_MargoControls),
    (n!"MargoCore", cls_MargoCore),
    (n!"AssertionError", { mro := [n!"AssertionError"], members := [], fields := [], isData := false, isExc := true }),
    (n!"NotImplementedError", { mro := [n!"NotImplementedError"], members := [], fields := [], isData := false, isExc := true })]
  globals := [(n!"int", .builtin n!"int"),
    (n!"str", .builtin n!"str"),
    (n!"float", .builtin n!"float"),
    (n!"len", .builtin n!"len"),
    (n!"range", .builtin n!"range"),
    (n!"tuple", .builtin n!"tuple"),
    (n!"hex", .builtin n!"hex"),
    (n!"bytes", .builtin n!"bytes"),
    (n!"next", .builtin n!"next"),
    (n!"isinstance", .builtin n!"isinstance"),
    (n!"type", .builtin n!"type"),
    (n!"super", .builtin n!"super"),
    (n!"setattr", .builtin n!"setattr"),
    (n!"getattr", .builtin n!"getattr"),
    (n!"dict", .builtin n!"dict"),
    (n!"set", .builtin n!"set"),
    (n!"enumerate", .builtin n!"enumerate"),
    (n!"AssertionError", .cls n!"AssertionError"),
    (n!"NotImplementedError", .cls n!"NotImplementedError"),
    (n!"logger", .logger),
    (n!"ExceptionBitsError", .cls n!"ExceptionBitsError"),
    (n!"Bits", .cls n!"Bits"),
    (n!"CRC24Q", .cls n!"CRC24Q"),
    (n!"getSubset", .fn n!"getSubset"),
    (n!"LEGT", .cls n!"LEGT"),
    (n!"EPHT", .cls n!"EPHT"),
    (n!"MSMT", .cls n!"MSMT"),
    (n!"math", .builtin n!"math"),
    (n!"copy", .builtin n!"copy"),
    (n!"fields", .builtin n!"fields"),
    (n!"asdict", .builtin n!"asdict"),
    (n!"DataClassMethods", .cls n!"DataClassMethods"),
    (n!"EphHdr", .cls n!"EphHdr"),
    (n!"ClockBias", .cls n!"ClockBias"),
    (n!"Keplerians", .cls n!"Keplerians"),
    (n!"EphGALF", .cls n!"EphGALF"),
    (n!"EphGALI", .cls n!"EphGALI"),
    (n!"EphQZS", .cls n!"EphQZS"),
    (n!"EphBDS", .cls n!"EphBDS"),
    (n!"EphGPS", .cls n!"EphGPS"),
    (n!"EphNAVIC", .cls n!"EphNAVIC"),
    (n!"EphGLO", .cls n!"EphGLO"),
    (n!"BaseRP", .cls n!"BaseRP"),
    (n!"BaseRPH", .cls n!"BaseRPH"),
    (n!"BaseAD", .cls n!"BaseAD"),
    (n!"BaseADSN", .cls n!"BaseADSN"),
    (n!"BaseADSNRC", .cls n!"BaseADSNRC"),
    (n!"BaseSPitem", .cls n!"BaseSPitem"),
    (n!"BaseSP", .cls n!"BaseSP"),
    (n!"BaseTS", .cls n!"BaseTS"),
    (n!"BaseGLBS", .cls n!"BaseGLBS"),
    (n!"ObservablesMSM", .cls n!"ObservablesMSM"),
    (n!"Attributes", .cls n!"Attributes"),
    (n!"_ObservablesHdrMSM", .cls n!"_ObservablesHdrMSM"),
    (n!"_ObservablesObs", .cls n!"_ObservablesObs"),
    (n!"_ObservablesAuxMSM", .cls n!"_ObservablesAuxMSM"),
    (n!"_ObservablesAuxLeg", .cls n!"_ObservablesAuxLeg"),
    (n!"_BareObservablesHdrMSM", .cls n!"_BareObservablesHdrMSM"),
    (n!"_BareObservablesSatDataMSM4567", .cls n!"_BareObservablesSatDataMSM4567"),
    (n!"_BareObservablesSignalDataMSM4567", .cls n!"_BareObservablesSignalDataMSM4567"),
    (n!"BareObservablesMSM4567", .cls n!"BareObservablesMSM4567"),
    (n!"_BareObservablesSatDataMSM123", .cls n!"_BareObservablesSatDataMSM123"),
    (n!"_BareObservablesSignalDataMSM123", .cls n!"_BareObservablesSignalDataMSM123"),
    (n!"BareObservablesMSM123", .cls n!"BareObservablesMSM123"),
    (n!"ExceptionEphemerisDecoder", .cls n!"ExceptionEphemerisDecoder"),
    (n!"EphemerisDecoder", .cls n!"EphemerisDecoder"),
    (n!"EphemerisDecoder.__scale1019.ura", .fn n!"EphemerisDecoder.__scale1019.ura"),
    (n!"SubdecoderEph", .cls n!"SubdecoderEph"),
    (n!"ExceptionBaseStationDataDecoder", .cls n!"ExceptionBaseStationDataDecoder"),
    (n!"BaseStationDataDecoder", .cls n!"BaseStationDataDecoder"),
    (n!"SubdecoderBaseStationData", .cls n!"SubdecoderBaseStationData"),
    (n!"ExceptionBareDataStructure", .cls n!"ExceptionBareDataStructure"),
    (n!"BareObservablesMSM17Decoder", .cls n!"BareObservablesMSM17Decoder"),
    (n!"BareObservablesMSM17Decoder.get_msg_num$undecorated", .fn n!"BareObservablesMSM17Decoder.get_msg_num$undecorated"),
    (n!"Bare2Scaled", .cls n!"Bare2Scaled"),
    (n!"decode_msm17", .fn n!"decode_msm17"),
    (n!"SubdecoderMSM4567", .cls n!"SubdecoderMSM4567"),
    (n!"SubdecoderMSM123", .cls n!"SubdecoderMSM123"),
    (n!"TEST_DATA_GRABBER", .const (.none)),
    (n!"SubDecoderInterface", .cls n!"SubDecoderInterface"),
    (n!"ExceptionDecoderDecode", .cls n!"ExceptionDecoderDecode"),
    (n!"DecoderTop", .cls n!"DecoderTop"),
    (n!"DecoderTop.decode$undecorated", .fn n!"DecoderTop.decode$undecorated"),
    (n!"DecoderTop.mnum$undecorated", .fn n!"DecoderTop.mnum$undecorated"),
    (n!"DecoderTop.mlen$undecorated", .fn n!"DecoderTop.mlen$undecorated"),
    (n!"DecoderTop.mcrc$undecorated", .fn n!"DecoderTop.mcrc$undecorated"),
    (n!"jdumps", .builtin n!"json.dumps"),
    (n!"JSONControls", .cls n!"JSONControls"),
    (n!"JSONCore", .cls n!"JSONCore"),
    (n!"MargoControls", .cls n!"MargoControls"),
    (n!"MargoCore", .cls n!"MargoCore"),
    (n!"mEph", .modul [n!"DataClassMethods", n!"ClockBias", n!"EphBDS", n!"EphGALF", n!"EphGALI", n!"EphGLO", n!"EphGPS", n!"EphHdr", n!"EphNAVIC", n!"EphQZS", n!"Keplerians", n!"BaseAD", n!"BaseADSN", n!"BaseADSNRC", n!"BaseGLBS", n!"BaseRP", n!"BaseRPH", n!"BaseSP", n!"BaseSPitem", n!"BaseTS", n!"Attributes", n!"BareObservablesMSM123", n!"BareObservablesMSM4567", n!"ObservablesMSM"])]

end PyCore
end Verif
