import Verif.PyCore.Syntax

/-!
# converter_top.py

Generated by fidelity/embed.py from the text of the module.
-/

namespace Verif
namespace PyCore
namespace Src

/-- Decoding part of `strategy_MSM17toMARGO`, converter_top.py:140-147. -/
def decoding_strategy_MSM17toMARGO : List Stmt := [
    .assign (.name n!"decoder") (.call (.name n!"DecoderTop") []),
    .assign (.name n!"msm123") (.call (.name n!"SubdecoderMSM123") [.const (.bool false)]),
    .assign (.name n!"msm4567") (.call (.name n!"SubdecoderMSM4567") [.const (.bool false)]),
    .ite (.not (.call (.attr (.name n!"decoder") n!"register_decoder") [.attr (.name n!"msm4567") n!"io"])) [
        .ret (.const (.none))] [],
    .ite (.not (.call (.attr (.name n!"decoder") n!"register_decoder") [.attr (.name n!"msm123") n!"io"])) [
        .ret (.const (.none))] [],
    .ret (.name n!"decoder")]

/-- Decoding part of `strategy_MSM17_EPH_BASE_to_JSON`, converter_top.py:167-181. -/
def decoding_strategy_MSM17_EPH_BASE_to_JSON : List Stmt := [
    .assign (.name n!"decoder") (.call (.name n!"DecoderTop") []),
    .assign (.name n!"msm123") (.call (.name n!"SubdecoderMSM123") [.const (.bool false)]),
    .assign (.name n!"msm4567") (.call (.name n!"SubdecoderMSM4567") [.const (.bool false)]),
    .assign (.name n!"eph") (.call (.name n!"SubdecoderEph") [.const (.bool false)]),
    .assign (.name n!"base") (.call (.name n!"SubdecoderBaseStationData") [.const (.bool false)]),
    .ite (.not (.call (.attr (.name n!"decoder") n!"register_decoder") [.attr (.name n!"msm4567") n!"io"])) [
        .ret (.const (.none))] [],
    .ite (.not (.call (.attr (.name n!"decoder") n!"register_decoder") [.attr (.name n!"msm123") n!"io"])) [
        .ret (.const (.none))] [],
    .ite (.not (.call (.attr (.name n!"decoder") n!"register_decoder") [.attr (.name n!"eph") n!"io"])) [
        .ret (.const (.none))] [],
    .ite (.not (.call (.attr (.name n!"decoder") n!"register_decoder") [.attr (.name n!"base") n!"io"])) [
        .ret (.const (.none))] [],
    .ret (.name n!"decoder")]

/-- Decoding part of `strategy_MSM17_EPH_BASE_to_JSON_BareData`, converter_top.py:201-215. -/
def decoding_strategy_MSM17_EPH_BASE_to_JSON_BareData : List Stmt := [
    .assign (.name n!"decoder") (.call (.name n!"DecoderTop") []),
    .assign (.name n!"msm123") (.call (.name n!"SubdecoderMSM123") [.const (.bool true)]),
    .assign (.name n!"msm4567") (.call (.name n!"SubdecoderMSM4567") [.const (.bool true)]),
    .assign (.name n!"eph") (.call (.name n!"SubdecoderEph") [.const (.bool true)]),
    .assign (.name n!"base") (.call (.name n!"SubdecoderBaseStationData") [.const (.bool true)]),
    .ite (.not (.call (.attr (.name n!"decoder") n!"register_decoder") [.attr (.name n!"msm4567") n!"io"])) [
        .ret (.const (.none))] [],
    .ite (.not (.call (.attr (.name n!"decoder") n!"register_decoder") [.attr (.name n!"msm123") n!"io"])) [
        .ret (.const (.none))] [],
    .ite (.not (.call (.attr (.name n!"decoder") n!"register_decoder") [.attr (.name n!"eph") n!"io"])) [
        .ret (.const (.none))] [],
    .ite (.not (.call (.attr (.name n!"decoder") n!"register_decoder") [.attr (.name n!"base") n!"io"])) [
        .ret (.const (.none))] [],
    .ret (.name n!"decoder")]

/-- Decoding part of `strategy_RTCM3_to_JARGO`, converter_top.py:235-249. -/
def decoding_strategy_RTCM3_to_JARGO : List Stmt := [
    .assign (.name n!"decoder") (.call (.name n!"DecoderTop") []),
    .assign (.name n!"msm123") (.call (.name n!"SubdecoderMSM123") [.const (.bool false)]),
    .assign (.name n!"msm4567") (.call (.name n!"SubdecoderMSM4567") [.const (.bool false)]),
    .assign (.name n!"eph") (.call (.name n!"SubdecoderEph") [.const (.bool false)]),
    .assign (.name n!"base") (.call (.name n!"SubdecoderBaseStationData") [.const (.bool false)]),
    .ite (.not (.call (.attr (.name n!"decoder") n!"register_decoder") [.attr (.name n!"msm4567") n!"io"])) [
        .ret (.const (.none))] [],
    .ite (.not (.call (.attr (.name n!"decoder") n!"register_decoder") [.attr (.name n!"msm123") n!"io"])) [
        .ret (.const (.none))] [],
    .ite (.not (.call (.attr (.name n!"decoder") n!"register_decoder") [.attr (.name n!"eph") n!"io"])) [
        .ret (.const (.none))] [],
    .ite (.not (.call (.attr (.name n!"decoder") n!"register_decoder") [.attr (.name n!"base") n!"io"])) [
        .ret (.const (.none))] [],
    .ret (.name n!"decoder")]

/-- The modes of `ConverterFactory`, converter_top.py:273-278. -/
def decoding : List (String × List Stmt) := [
    ("MARGO", decoding_strategy_MSM17toMARGO),
    ("JSON", decoding_strategy_MSM17_EPH_BASE_to_JSON),
    ("JSON-B", decoding_strategy_MSM17_EPH_BASE_to_JSON_BareData),
    ("JARGO", decoding_strategy_RTCM3_to_JARGO)]

end Src
end PyCore
end Verif
