import Verif.Spec.XXH32
import Verif.Spec.XXH3
/-!
Validation of the specification (not a proof): the known answers of
`cli/xsum_sanity_check.c` are reproduced by the specification functions.
-/
namespace XXH.Spec.KnownAnswers

/-- `XSUM_fillTestBuffer`, cli/xsum_sanity_check.c:46-59. -/
def fill (n : Nat) : List Byte :=
  ((List.range n).foldl (fun (p : List Byte × W64) _ =>
    ((p.2 >>> 56).setWidth 8 :: p.1, p.2 * 0x9E3779B185EBCA8D#64)) ([], 0x9E3779B1#64)).1.reverse

#guard XXH32.hash (fill 0) 0 = 0x02CC5D05#32
#guard XXH32.hash (fill 0) 0x9E3779B1 = 0x36B78AE7#32
#guard XXH32.hash (fill 1) 0 = 0xCF65B03E#32
#guard XXH32.hash (fill 1) 0x9E3779B1 = 0xB4545AA4#32
#guard XXH32.hash (fill 14) 0 = 0x1208E7E2#32
#guard XXH32.hash (fill 14) 0x9E3779B1 = 0x6AF1D1FE#32
#guard XXH32.hash (fill 222) 0 = 0x5BD11DBD#32
#guard XXH32.hash (fill 222) 0x9E3779B1 = 0x58803C5F#32
#guard XXH64.hash (fill 0) 0 = 0xEF46DB3751D8E999#64
#guard XXH64.hash (fill 0) 0x9E3779B1 = 0xAC75FDA2929B17EF#64
#guard XXH64.hash (fill 1) 0 = 0xE934A84ADB052768#64
#guard XXH64.hash (fill 1) 0x9E3779B1 = 0x5014607643A9B4C3#64
#guard XXH64.hash (fill 4) 0 = 0x9136A0DCA57457EE#64
#guard XXH64.hash (fill 14) 0 = 0x8282DCC4994E35C8#64
#guard XXH64.hash (fill 14) 0x9E3779B1 = 0xC3BD6BF63DEB6DF0#64
#guard XXH64.hash (fill 222) 0 = 0xB641AE8CB691C174#64
#guard XXH64.hash (fill 222) 0x9E3779B1 = 0x20CB8AB7AE10C14A#64
#guard XXH3.XXH3_64_withSeed (fill 0) 0 = 0x2D06800538D394C2#64
#guard XXH3.XXH3_64 (fill 0) = 0x2D06800538D394C2#64
#guard XXH3.XXH3_64_withSeed (fill 0) 0x9E3779B185EBCA8D = 0xA8A6B918B2F0364A#64
#guard XXH3.XXH3_64_withSeed (fill 1) 0 = 0xC44BDFF4074EECDB#64
#guard XXH3.XXH3_64 (fill 1) = 0xC44BDFF4074EECDB#64
#guard XXH3.XXH3_64_withSeed (fill 1) 0x9E3779B185EBCA8D = 0x032BE332DD766EF8#64
#guard XXH3.XXH3_64_withSeed (fill 6) 0 = 0x27B56A84CD2D7325#64
#guard XXH3.XXH3_64 (fill 6) = 0x27B56A84CD2D7325#64
#guard XXH3.XXH3_64_withSeed (fill 6) 0x9E3779B185EBCA8D = 0x84589C116AB59AB9#64
#guard XXH3.XXH3_64_withSeed (fill 12) 0 = 0xA713DAF0DFBB77E7#64
#guard XXH3.XXH3_64 (fill 12) = 0xA713DAF0DFBB77E7#64
#guard XXH3.XXH3_64_withSeed (fill 12) 0x9E3779B185EBCA8D = 0xE7303E1B2336DE0E#64
#guard XXH3.XXH3_64_withSeed (fill 24) 0 = 0xA3FE70BF9D3510EB#64
#guard XXH3.XXH3_64 (fill 24) = 0xA3FE70BF9D3510EB#64
#guard XXH3.XXH3_64_withSeed (fill 24) 0x9E3779B185EBCA8D = 0x850E80FC35BDD690#64
#guard XXH3.XXH3_64_withSeed (fill 48) 0 = 0x397DA259ECBA1F11#64
#guard XXH3.XXH3_64 (fill 48) = 0x397DA259ECBA1F11#64
#guard XXH3.XXH3_64_withSeed (fill 48) 0x9E3779B185EBCA8D = 0xADC2CBAA44ACC616#64
#guard XXH3.XXH3_64_withSeed (fill 80) 0 = 0xBCDEFBBB2C47C90A#64
#guard XXH3.XXH3_64 (fill 80) = 0xBCDEFBBB2C47C90A#64
#guard XXH3.XXH3_64_withSeed (fill 80) 0x9E3779B185EBCA8D = 0xC6DD0CB699532E73#64
#guard XXH3.XXH3_64_withSeed (fill 195) 0 = 0xCD94217EE362EC3A#64
#guard XXH3.XXH3_64 (fill 195) = 0xCD94217EE362EC3A#64
#guard XXH3.XXH3_64_withSeed (fill 195) 0x9E3779B185EBCA8D = 0xBA68003D370CB3D9#64
#guard XXH3.XXH3_64_withSeed (fill 403) 0 = 0xCDEB804D65C6DEA4#64
#guard XXH3.XXH3_64 (fill 403) = 0xCDEB804D65C6DEA4#64
#guard XXH3.XXH3_64_withSeed (fill 403) 0x9E3779B185EBCA8D = 0x6259F6ECFD6443FD#64
#guard XXH3.XXH3_64_withSeed (fill 512) 0 = 0x617E49599013CB6B#64
#guard XXH3.XXH3_64 (fill 512) = 0x617E49599013CB6B#64
#guard XXH3.XXH3_64_withSeed (fill 512) 0x9E3779B185EBCA8D = 0x3CE457DE14C27708#64
#guard XXH3.XXH3_64_withSeed (fill 2048) 0 = 0xDD59E2C3A5F038E0#64
#guard XXH3.XXH3_64 (fill 2048) = 0xDD59E2C3A5F038E0#64
#guard XXH3.XXH3_64_withSeed (fill 2048) 0x9E3779B185EBCA8D = 0x66F81670669ABABC#64
#guard XXH3.XXH3_64_withSeed (fill 2099) 0 = 0xC6B9D9B3FC9AC765#64
#guard XXH3.XXH3_64 (fill 2099) = 0xC6B9D9B3FC9AC765#64
#guard XXH3.XXH3_64_withSeed (fill 2099) 0x9E3779B185EBCA8D = 0x184F316843663974#64
#guard XXH3.XXH3_64_withSeed (fill 2240) 0 = 0x6E73A90539CF2948#64
#guard XXH3.XXH3_64 (fill 2240) = 0x6E73A90539CF2948#64
#guard XXH3.XXH3_64_withSeed (fill 2240) 0x9E3779B185EBCA8D = 0x757BA8487D1B5247#64
#guard XXH3.XXH3_64_withSeed (fill 2367) 0 = 0xCB37AEB9E5D361ED#64
#guard XXH3.XXH3_64 (fill 2367) = 0xCB37AEB9E5D361ED#64
#guard XXH3.XXH3_64_withSeed (fill 2367) 0x9E3779B185EBCA8D = 0xD2DB3415B942B42A#64
#guard XXH3.XXH3_64_withSecret (fill (0)) ((fill (7+136+11)).drop 7) = 0x3559D64878C5C66C#64
#guard XXH3.XXH3_64_withSecret (fill (1)) ((fill (7+136+11)).drop 7) = 0x8A52451418B2DA4D#64
#guard XXH3.XXH3_64_withSecret (fill (6)) ((fill (7+136+11)).drop 7) = 0x82C90AB0519369AD#64
#guard XXH3.XXH3_64_withSecret (fill (12)) ((fill (7+136+11)).drop 7) = 0x14631E773B78EC57#64
#guard XXH3.XXH3_64_withSecret (fill (24)) ((fill (7+136+11)).drop 7) = 0xCDD5542E4A9D9FE8#64
#guard XXH3.XXH3_64_withSecret (fill (48)) ((fill (7+136+11)).drop 7) = 0x33ABD54D094B2534#64
#guard XXH3.XXH3_64_withSecret (fill (80)) ((fill (7+136+11)).drop 7) = 0xE687BA1684965297#64
#guard XXH3.XXH3_64_withSecret (fill (195)) ((fill (7+136+11)).drop 7) = 0xA057273F5EECFB20#64
#guard XXH3.XXH3_64_withSecret (fill (403)) ((fill (7+136+11)).drop 7) = 0x14546019124D43B8#64
#guard XXH3.XXH3_64_withSecret (fill (512)) ((fill (7+136+11)).drop 7) = 0x7564693DD526E28D#64
#guard XXH3.XXH3_64_withSecret (fill (2048)) ((fill (7+136+11)).drop 7) = 0xD32E975821D6519F#64
#guard XXH3.XXH3_64_withSecret (fill (2367)) ((fill (7+136+11)).drop 7) = 0x293FA8E5173BB5E7#64
#guard XXH3.XXH3_64_withSecret (fill (64*10*3)) ((fill (7+136+11)).drop 7) = 0x751D2EC54BC6038B#64
#guard XXH3.XXH3_128_withSeed (fill 0) 0 = ⟨0x6001C324468D497F#64, 0x99AA06D3014798D8#64⟩
#guard XXH3.XXH3_128 (fill 0) = ⟨0x6001C324468D497F#64, 0x99AA06D3014798D8#64⟩
#guard XXH3.XXH3_128_withSeed (fill 0) 0x9E3779B1 = ⟨0x5444F7869C671AB0#64, 0x92220AE55E14AB50#64⟩
#guard XXH3.XXH3_128_withSeed (fill 1) 0 = ⟨0xC44BDFF4074EECDB#64, 0xA6CD5E9392000F6A#64⟩
#guard XXH3.XXH3_128 (fill 1) = ⟨0xC44BDFF4074EECDB#64, 0xA6CD5E9392000F6A#64⟩
#guard XXH3.XXH3_128_withSeed (fill 1) 0x9E3779B1 = ⟨0xB53D5557E7F76F8D#64, 0x89B99554BA22467C#64⟩
#guard XXH3.XXH3_128_withSeed (fill 6) 0 = ⟨0x3E7039BDDA43CFC6#64, 0x082AFE0B8162D12A#64⟩
#guard XXH3.XXH3_128 (fill 6) = ⟨0x3E7039BDDA43CFC6#64, 0x082AFE0B8162D12A#64⟩
#guard XXH3.XXH3_128_withSeed (fill 6) 0x9E3779B1 = ⟨0x269D8F70BE98856E#64, 0x5A865B5389ABD2B1#64⟩
#guard XXH3.XXH3_128_withSeed (fill 12) 0 = ⟨0x061A192713F69AD9#64, 0x6E3EFD8FC7802B18#64⟩
#guard XXH3.XXH3_128 (fill 12) = ⟨0x061A192713F69AD9#64, 0x6E3EFD8FC7802B18#64⟩
#guard XXH3.XXH3_128_withSeed (fill 12) 0x9E3779B1 = ⟨0x9BE9F9A67F3C7DFB#64, 0xD7E09D518A3405D3#64⟩
#guard XXH3.XXH3_128_withSeed (fill 24) 0 = ⟨0x1E7044D28B1B901D#64, 0x0CE966E4678D3761#64⟩
#guard XXH3.XXH3_128 (fill 24) = ⟨0x1E7044D28B1B901D#64, 0x0CE966E4678D3761#64⟩
#guard XXH3.XXH3_128_withSeed (fill 24) 0x9E3779B1 = ⟨0xD7304C54EBAD40A9#64, 0x3162026714A6A243#64⟩
#guard XXH3.XXH3_128_withSeed (fill 48) 0 = ⟨0xF942219AED80F67B#64, 0xA002AC4E5478227E#64⟩
#guard XXH3.XXH3_128 (fill 48) = ⟨0xF942219AED80F67B#64, 0xA002AC4E5478227E#64⟩
#guard XXH3.XXH3_128_withSeed (fill 48) 0x9E3779B1 = ⟨0x7BA3C3E453A1934E#64, 0x163ADDE36C072295#64⟩
#guard XXH3.XXH3_128_withSeed (fill 81) 0 = ⟨0x5E8BAFB9F95FB803#64, 0x4952F58181AB0042#64⟩
#guard XXH3.XXH3_128 (fill 81) = ⟨0x5E8BAFB9F95FB803#64, 0x4952F58181AB0042#64⟩
#guard XXH3.XXH3_128_withSeed (fill 81) 0x9E3779B1 = ⟨0x703FBB3D7A5F755C#64, 0x2724EC7ADC750FB6#64⟩
#guard XXH3.XXH3_128_withSeed (fill 222) 0 = ⟨0xF1AEBD597CEC6B3A#64, 0x337E09641B948717#64⟩
#guard XXH3.XXH3_128 (fill 222) = ⟨0xF1AEBD597CEC6B3A#64, 0x337E09641B948717#64⟩
#guard XXH3.XXH3_128_withSeed (fill 222) 0x9E3779B1 = ⟨0xAE995BB8AF917A8D#64, 0x91820016621E97F1#64⟩
#guard XXH3.XXH3_128_withSeed (fill 403) 0 = ⟨0xCDEB804D65C6DEA4#64, 0x1B6DE21E332DD73D#64⟩
#guard XXH3.XXH3_128 (fill 403) = ⟨0xCDEB804D65C6DEA4#64, 0x1B6DE21E332DD73D#64⟩
#guard XXH3.XXH3_128_withSeed (fill 403) 0x9E3779B185EBCA8D = ⟨0x6259F6ECFD6443FD#64, 0xBED311971E0BE8F2#64⟩
#guard XXH3.XXH3_128_withSeed (fill 512) 0 = ⟨0x617E49599013CB6B#64, 0x18D2D110DCC9BCA1#64⟩
#guard XXH3.XXH3_128 (fill 512) = ⟨0x617E49599013CB6B#64, 0x18D2D110DCC9BCA1#64⟩
#guard XXH3.XXH3_128_withSeed (fill 512) 0x9E3779B185EBCA8D = ⟨0x3CE457DE14C27708#64, 0x925D06B8EC5B8040#64⟩
#guard XXH3.XXH3_128_withSeed (fill 2048) 0 = ⟨0xDD59E2C3A5F038E0#64, 0xF736557FD47073A5#64⟩
#guard XXH3.XXH3_128 (fill 2048) = ⟨0xDD59E2C3A5F038E0#64, 0xF736557FD47073A5#64⟩
#guard XXH3.XXH3_128_withSeed (fill 2048) 0x9E3779B1 = ⟨0x230D43F30206260B#64, 0x7FB03F7E7186C3EA#64⟩
#guard XXH3.XXH3_128_withSeed (fill 2240) 0 = ⟨0x6E73A90539CF2948#64, 0xCCB134FBFA7CE49D#64⟩
#guard XXH3.XXH3_128 (fill 2240) = ⟨0x6E73A90539CF2948#64, 0xCCB134FBFA7CE49D#64⟩
#guard XXH3.XXH3_128_withSeed (fill 2240) 0x9E3779B1 = ⟨0xED385111126FBA6F#64, 0x50A1FE17B338995F#64⟩
#guard XXH3.XXH3_128_withSeed (fill 2367) 0 = ⟨0xCB37AEB9E5D361ED#64, 0xE89C0F6FF369B427#64⟩
#guard XXH3.XXH3_128 (fill 2367) = ⟨0xCB37AEB9E5D361ED#64, 0xE89C0F6FF369B427#64⟩
#guard XXH3.XXH3_128_withSeed (fill 2367) 0x9E3779B1 = ⟨0x6F5360AE69C2F406#64, 0xD23AAE4B76C31ECB#64⟩
#guard XXH3.XXH3_128_withSecret (fill 0) ((fill (7+136+11)).drop 7) = ⟨0x005923CCEECBE8AE#64, 0x5F70F4EA232F1D38#64⟩
#guard XXH3.XXH3_128_withSecret (fill 1) ((fill (7+136+11)).drop 7) = ⟨0x8A52451418B2DA4D#64, 0x3A66AF5A9819198E#64⟩
#guard XXH3.XXH3_128_withSecret (fill 6) ((fill (7+136+11)).drop 7) = ⟨0x0B61C8ACA7D4778F#64, 0x376BD91B6432F36D#64⟩
#guard XXH3.XXH3_128_withSecret (fill 12) ((fill (7+136+11)).drop 7) = ⟨0xAF82F6EBA263D7D8#64, 0x90A3C2D839F57D0F#64⟩

end XXH.Spec.KnownAnswers
