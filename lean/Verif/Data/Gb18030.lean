import Verif.Data.Tables
/-
GB18030 codes of the characters of src/bip39/langs/chinese_simplified.txt (all of them are two-byte
codes).  `K=C` says that code point K is encoded by the two bytes of C (hexadecimal).
-/
namespace Kms.Data

/-- GB18030 codes, code points 4E00 to 5269 -/
def gb180300 : List (Nat × Nat) :=
  classes! "4E00=D2BB 4E01=B6A1 4E03=C6DF 4E07=CDF2 4E08=D5C9 4E09=C8FD 4E0A=C9CF 4E0B=CFC2 4E0D=B2BB \
    4E0E=D3EB 4E13=D7A8 4E14=C7D2 4E16=CAC0 4E18=C7F0 4E19=B1FB 4E1A=D2B5 4E1B=B4D4 4E1C=B6AB \
    4E1D=CBBF 4E22=B6AA 4E24=C1BD 4E25=D1CF 4E27=C9A5 4E2A=B8F6 4E2D=D6D0 4E30=B7E1 4E32=B4AE \
    4E34=C1D9 4E39=B5A4 4E3A=CEAA 4E3B=D6F7 4E3D=C0F6 4E3E=BED9 4E43=C4CB 4E45=BEC3 4E48=C3B4 \
    4E49=D2E5 4E4B=D6AE 4E4C=CEDA 4E4E=BAF5 4E4F=B7A6 4E50=C0D6 4E54=C7C7 4E58=B3CB 4E59=D2D2 \
    4E5D=BEC5 4E5F=D2B2 4E60=CFB0 4E61=CFE7 4E66=CAE9 4E70=C2F2 4E71=C2D2 4E73=C8E9 4E86=C1CB \
    4E88=D3E8 4E89=D5F9 4E8B=CAC2 4E8C=B6FE 4E8E=D3DA 4E8F=BFF7 4E91=D4C6 4E92=BBA5 4E94=CEE5 \
    4E95=BEAE 4E9A=D1C7 4E9B=D0A9 4EA1=CDF6 4EA4=BDBB 4EA6=D2E0 4EA7=B2FA 4EA9=C4B6 4EAB=CFED \
    4EAC=BEA9 4EAD=CDA4 4EAE=C1C1 4EB2=C7D7 4EBA=C8CB 4EBF=D2DA 4EC0=CAB2 4EC1=C8CA 4EC5=BDF6 \
    4EC7=B3F0 4ECA=BDF1 4ECB=BDE9 4ECD=C8D4 4ECE=B4D3 4ED3=B2D6 4ED4=D7D0 4ED6=CBFB 4ED7=D5CC \
    4ED8=B8B6 4EE3=B4FA 4EE4=C1EE 4EE5=D2D4 4EEA=D2C7 4EEC=C3C7 4EF0=D1F6 4EF2=D6D9 4EF6=BCFE \
    4EF7=BCDB 4EFB=C8CE 4EFD=B7DD 4EFF=B7C2 4F01=C6F3 4F0A=D2C1 4F0D=CEE9 4F0F=B7FC 4F10=B7A5 \
    4F11=D0DD 4F17=D6DA 4F18=D3C5 4F19=BBEF 4F1A=BBE1 4F1F=CEB0 4F20=B4AB 4F24=C9CB 4F26=C2D7 \
    4F2A=CEB1 4F2F=B2AE 4F30=B9C0 4F34=B0E9 4F38=C9EC 4F3C=CBC6 4F46=B5AB 4F4D=CEBB 4F4E=B5CD \
    4F4F=D7A1 4F53=CCE5 4F55=BACE 4F59=D3E0 4F5B=B7F0 4F5C=D7F7 4F60=C4E3 4F73=BCD1 4F7F=CAB9 \
    4F8B=C0FD 4F9B=B9A9 4F9D=D2C0 4FA6=D5EC 4FA7=B2E0 4FA8=C7C8 4FB5=C7D6 4FBF=B1E3 4FC3=B4D9 \
    4FC4=B6ED 4FD7=CBD7 4FDD=B1A3 4FE1=D0C5 4FE9=C1A9 4FEE=D0DE 500D=B1B6 5012=B5B9 5019=BAF2 \
    501F=BDE8 5021=B3AB 503A=D5AE 503C=D6B5 503E=C7E3 5047=BCD9 504F=C6AB 505A=D7F6 505C=CDA3 \
    5065=BDA1 5076=C5BC 5077=CDB5 507F=B3A5 5085=B8B5 50A8=B4A2 50AC=B4DF 50CF=CFF1 50DA=C1C5 \
    513F=B6F9 5141=D4CA 5143=D4AA 5144=D0D6 5145=B3E4 5148=CFC8 5149=B9E2 514B=BFCB 514D=C3E2 \
    515A=B5B3 5165=C8EB 5168=C8AB 516B=B0CB 516C=B9AB 516D=C1F9 5170=C0BC 5171=B9B2 5173=B9D8 \
    5174=D0CB 5175=B1F8 5176=C6E4 5177=BEDF 5178=B5E4 517B=D1F8 517C=BCE6 5185=C4DA 518C=B2E1 \
    518D=D4D9 5192=C3B0 5199=D0B4 519B=BEFC 519C=C5A9 51A0=B9DA 51AC=B6AC 51AF=B7EB 51B0=B1F9 \
    51B2=B3E5 51B3=BEF6 51B5=BFF6 51B6=D2B1 51B7=C0E4 51BB=B6B3 51C0=BEBB 51C6=D7BC 51C9=C1B9 \
    51CF=BCF5 51DD=C4FD 51E0=BCB8 51E1=B7B2 51E4=B7EF 51ED=C6BE 51EF=BFAD 51F6=D0D7 51F8=CDB9 \
    51FA=B3F6 51FB=BBF7 51FD=BAAF 5200=B5B6 5206=B7D6 5207=C7D0 520A=BFAF 5211=D0CC 5212=BBAE \
    5217=C1D0 5218=C1F5 5219=D4F2 521A=B8D5 521B=B4B4 521D=B3F5 5224=C5D0 5229=C0FB 522B=B1F0 \
    522E=B9CE 5230=B5BD 5236=D6C6 5237=CBA2 523A=B4CC 523B=BFCC 5242=BCC1 524A=CFF7 524D=C7B0 \
    5251=BDA3 5265=B0FE 5267=BEE7 5269=CAA3"

/-- GB18030 codes, code points 526A to 59D3 -/
def gb180301 : List (Nat × Nat) :=
  classes! "526A=BCF4 526F=B8B1 5272=B8EE 529B=C1A6 529D=C8B0 529E=B0EC 529F=B9A6 52A0=BCD3 52A1=CEF1 \
    52A3=C1D3 52A8=B6AF 52A9=D6FA 52AA=C5AC 52B1=C0F8 52B2=BEA2 52B3=C0CD 52BF=CAC6 52C3=B2AA \
    52C7=D3C2 52D2=C0D5 52D8=BFB1 52E4=C7DA 52FE=B9B4 5300=D4C8 5305=B0FC 5316=BBAF 5317=B1B1 \
    533A=C7F8 533B=D2BD 5341=CAAE 5343=C7A7 5347=C9FD 5348=CEE7 534A=B0EB 534E=BBAA 534F=D0AD \
    5355=B5A5 5356=C2F4 5357=C4CF 535A=B2A9 5360=D5BC 5361=BFA8 5362=C2AC 536B=CEC0 5370=D3A1 \
    5371=CEA3 5373=BCB4 5374=C8B4 5375=C2D1 5377=BEED 5378=D0B6 537F=C7E4 5382=B3A7 5385=CCFC \
    5386=C0FA 5389=C0F7 538B=D1B9 5398=C0E5 539A=BAF1 539F=D4AD 53BB=C8A5 53BF=CFD8 53C2=B2CE \
    53C8=D3D6 53CA=BCB0 53CB=D3D1 53CC=CBAB 53CD=B7B4 53D1=B7A2 53D4=CAE5 53D6=C8A1 53D7=CADC \
    53D8=B1E4 53D9=D0F0 53DB=C5D1 53E0=B5FE 53E3=BFDA 53E4=B9C5 53E5=BEE4 53E6=C1ED 53EA=D6BB \
    53EB=BDD0 53EC=D5D9 53EF=BFC9 53F0=CCA8 53F2=CAB7 53F3=D3D2 53F6=D2B6 53F7=BAC5 53F8=CBBE \
    53F9=CCBE 5403=B3D4 5404=B8F7 5408=BACF 5409=BCAA 540A=B5F5 540C=CDAC 540D=C3FB 540E=BAF3 \
    540F=C0F4 5410=CDC2 5411=CFF2 5417=C2F0 541B=BEFD 541E=CDCC 5426=B7F1 5427=B0C9 5428=B6D6 \
    542B=BAAC 542C=CCFD 542F=C6F4 5434=CEE2 5438=CEFC 5439=B4B5 543E=CEE1 5440=D1BD 5446=B4F4 \
    5448=B3CA 544A=B8E6 5458=D4B1 5462=C4D8 5468=D6DC 5473=CEB6 5475=BAC7 547C=BAF4 547D=C3FC \
    548C=BACD 54A8=D7C9 54AC=D2A7 54B1=D4DB 54C0=B0A7 54C1=C6B7 54C8=B9FE 54CD=CFEC 54E5=B8E7 \
    54E9=C1A8 54EA=C4C4 54ED=BFDE 54F2=D5DC 5510=CCC6 552E=CADB 552F=CEA8 5531=B3AA 5546=C9CC \
    554A=B0A1 5565=C9B6 5566=C0B2 5582=CEB9 5584=C9C6 558A=BAB0 559C=CFB2 559D=BAC8 55B7=C5E7 \
    561B=C2EF 5634=D7EC 5668=C6F7 56DB=CBC4 56DE=BBD8 56E0=D2F2 56E2=CDC5 56ED=D4B0 56F0=C0A7 \
    56F4=CEA7 56FA=B9CC 56FD=B9FA 56FE=CDBC 5706=D4B2 5708=C8A6 571F=CDC1 5723=CAA5 5728=D4DA \
    5730=B5D8 573A=B3A1 5747=BEF9 574F=BBB5 5750=D7F8 5751=BFD3 5757=BFE9 575A=BCE1 575D=B0D3 \
    5761=C6C2 5766=CCB9 576F=C5F7 5782=B4B9 5784=C2A2 578B=D0CD 57AB=B5E6 57C3=B0A3 57CB=C2F1 \
    57CE=B3C7 57D4=C6D2 57DF=D3F2 57F9=C5E0 57FA=BBF9 5802=CCC3 5806=B6D1 5821=B1A4 5835=B6C2 \
    5851=CBDC 5854=CBFE 5858=CCC1 585E=C8FB 586B=CCEE 5883=BEB3 5899=C7BD 589E=D4F6 58A8=C4AB \
    58C1=B1DA 58E4=C8C0 58EB=CABF 58EE=D7B3 58F0=C9F9 58F3=BFC7 5904=B4A6 5907=B1B8 590D=B8B4 \
    590F=CFC4 5916=CDE2 591A=B6E0 591C=D2B9 591F=B9BB 5927=B4F3 5929=CCEC 592A=CCAB 592B=B7F2 \
    592E=D1EB 5931=CAA7 5934=CDB7 5939=BCD0 593A=B6E1 5947=C6E6 5949=B7EE 594B=B7DC 594F=D7E0 \
    5954=B1BC 5956=BDB1 5957=CCD7 5965=B0C2 5973=C5AE 5974=C5AB 5976=C4CC 5979=CBFD 597D=BAC3 \
    5982=C8E7 5987=B8BE 5988=C2E8 5999=C3EE 59A5=CDD7 59A8=B7C1 59B9=C3C3 59BB=C6DE 59C6=C4B7 \
    59CB=CABC 59D0=BDE3 59D1=B9C3 59D3=D0D5"

/-- GB18030 codes, code points 59D4 to 6247 -/
def gb180302 : List (Nat × Nat) :=
  classes! "59D4=CEAF 59DA=D2A6 59DC=BDAA 59FB=D2F6 59FF=D7CB 5A01=CDFE 5A18=C4EF 5A46=C6C5 5A5A=BBE9 \
    5AC2=C9A9 5AE9=C4DB 5B50=D7D3 5B54=BFD7 5B57=D7D6 5B58=B4E6 5B59=CBEF 5B5F=C3CF 5B63=BCBE \
    5B64=B9C2 5B66=D1A7 5B69=BAA2 5B81=C4FE 5B83=CBFC 5B87=D3EE 5B88=CAD8 5B89=B0B2 5B8B=CBCE \
    5B8C=CDEA 5B97=D7DA 5B98=B9D9 5B9A=B6A8 5B9C=D2CB 5B9D=B1A6 5B9E=CAB5 5BA1=C9F3 5BA2=BFCD \
    5BA3=D0FB 5BA4=CAD2 5BAA=CFDC 5BAB=B9AC 5BB3=BAA6 5BB4=D1E7 5BB6=BCD2 5BB9=C8DD 5BBD=BFED \
    5BBE=B1F6 5BBF=CBDE 5BC4=BCC4 5BC6=C3DC 5BCC=B8BB 5BD2=BAAE 5BDF=B2EC 5BE8=D5AF 5BF8=B4E7 \
    5BF9=B6D4 5BFA=CBC2 5BFB=D1B0 5BFC=B5BC 5BFF=CAD9 5C01=B7E2 5C04=C9E4 5C06=BDAB 5C0A=D7F0 \
    5C0F=D0A1 5C11=C9D9 5C14=B6FB 5C16=BCE2 5C18=B3BE 5C1A=C9D0 5C1D=B3A2 5C24=D3C8 5C31=BECD \
    5C38=CAAC 5C3A=B3DF 5C3C=C4E1 5C3D=BEA1 5C3E=CEB2 5C40=BED6 5C42=B2E3 5C45=BED3 5C48=C7FC \
    5C4A=BDEC 5C4B=CEDD 5C4F=C6C1 5C55=D5B9 5C5E=CAF4 5C71=C9BD 5C81=CBEA 5C97=B8DA 5C9B=B5BA \
    5CA9=D1D2 5CAD=C1EB 5CB8=B0B6 5CE1=CFBF 5CF0=B7E5 5D07=B3E7 5DDD=B4A8 5DDE=D6DD 5DE1=D1B2 \
    5DE5=B9A4 5DE6=D7F3 5DE7=C7C9 5DE8=BEDE 5DE9=B9AE 5DEE=B2EE 5DF2=D2D1 5DF4=B0CD 5DF7=CFEF \
    5E01=B1D2 5E02=CAD0 5E03=B2BC 5E08=CAA6 5E0C=CFA3 5E10=D5CA 5E1D=B5DB 5E26=B4F8 5E2D=CFAF \
    5E2E=B0EF 5E38=B3A3 5E3D=C3B1 5E45=B7F9 5E55=C4BB 5E72=B8C9 5E73=C6BD 5E74=C4EA 5E76=B2A2 \
    5E78=D0D2 5E7B=BBC3 5E7C=D3D7 5E7F=B9E3 5E84=D7AF 5E86=C7EC 5E8A=B4B2 5E8F=D0F2 5E93=BFE2 \
    5E94=D3A6 5E95=B5D7 5E97=B5EA 5E99=C3ED 5E9C=B8AE 5E9F=B7CF 5EA6=B6C8 5EA7=D7F9 5EAD=CDA5 \
    5EB7=BFB5 5EF6=D1D3 5EF7=CDA2 5EFA=BDA8 5F00=BFAA 5F02=D2EC 5F03=C6FA 5F04=C5AA 5F0F=CABD \
    5F13=B9AD 5F15=D2FD 5F1F=B5DC 5F20=D5C5 5F26=CFD2 5F27=BBA1 5F2F=CDE4 5F31=C8F5 5F39=B5AF \
    5F3A=C7BF 5F52=B9E9 5F53=B5B1 5F55=C2BC 5F62=D0CE 5F69=B2CA 5F6A=B1EB 5F6D=C5ED 5F71=D3B0 \
    5F79=D2DB 5F7B=B3B9 5F7C=B1CB 5F80=CDF9 5F81=D5F7 5F84=BEB6 5F85=B4FD 5F88=BADC 5F8B=C2C9 \
    5F90=D0EC 5F92=CDBD 5F97=B5C3 5F99=E1E3 5FA1=D3F9 5FAA=D1AD 5FAE=CEA2 5FB7=B5C2 5FBD=BBD5 \
    5FC3=D0C4 5FC5=B1D8 5FC6=D2E4 5FCD=C8CC 5FD7=D6BE 5FD8=CDFC 5FD9=C3A6 5FE0=D6D2 5FE7=D3C7 \
    5FEB=BFEC 5FF5=C4EE 5FFD=BAF6 6000=BBB3 6001=CCAC 600E=D4F5 6012=C5AD 6015=C5C2 601D=CBBC \
    6025=BCB1 6027=D0D4 6028=D4B9 602A=B9D6 603B=D7DC 6050=BFD6 6052=BAE3 6062=BBD6 6068=BADE \
    6069=B6F7 606F=CFA2 6070=C7A1 6076=B6F1 6084=C7C4 6089=CFA4 609F=CEF2 60A3=BBBC 60A8=C4FA \
    60AC=D0FC 60B2=B1AF 60C5=C7E9 60CA=BEAA 60DC=CFA7 60E0=BBDD 60E8=B2D2 60E9=B3CD 60EF=B9DF \
    60F3=CFEB 6108=D3FA 610F=D2E2 611F=B8D0 6124=B7DF 613F=D4B8 614C=BBC5 6162=C2FD 6170=CEBF \
    61C2=B6AE 6208=B8EA 620F=CFB7 6210=B3C9 6211=CED2 6216=BBF2 6218=D5BD 622A=BDD8 6234=B4F7 \
    6237=BBA7 623F=B7BF 6240=CBF9 6247=C9C8"

/-- GB18030 codes, code points 624B to 6865 -/
def gb180303 : List (Nat × Nat) :=
  classes! "624B=CAD6 624D=B2C5 624E=D4FA 6251=C6CB 6253=B4F2 6258=CDD0 6263=BFDB 6267=D6B4 6269=C0A9 \
    626B=C9A8 626C=D1EF 626D=C5A4 6270=C8C5 6276=B7F6 6279=C5FA 627E=D5D2 627F=B3D0 6280=BCBC \
    628A=B0D1 6291=D2D6 6293=D7A5 6295=CDB6 6297=BFB9 6298=D5DB 629A=B8A7 629B=C5D7 62A2=C7C0 \
    62A4=BBA4 62A5=B1A8 62AC=CCA7 62B1=B1A7 62B5=B5D6 62B9=C4A8 62BD=B3E9 62C5=B5A3 62C6=B2F0 \
    62C9=C0AD 62CC=B0E8 62CD=C5C4 62D2=BEDC 62D4=B0CE 62D6=CDCF 62DB=D5D0 62DC=B0DD 62DF=C4E2 \
    62E5=D3B5 62E8=B2A6 62E9=D4F1 62EC=C0A8 62FF=C4C3 6301=B3D6 6302=B9D2 6307=D6B8 6309=B0B4 \
    6311=CCF4 6316=CDDA 6321=B5B2 6324=BCB7 6325=BBD3 632F=D5F1 633A=CDA6 6345=CDB1 6349=D7BD \
    6350=BEE8 6355=B2B6 635E=C0CC 635F=CBF0 6362=BBBB 636E=BEDD 6388=CADA 6389=B5F4 638C=D5C6 \
    6392=C5C5 6398=BEF2 63A2=CCBD 63A5=BDD3 63A7=BFD8 63A8=CDC6 63A9=D1DA 63AA=B4EB 63B7=D6C0 \
    63C9=C8E0 63CF=C3E8 63D0=CCE1 63D2=B2E5 63E1=CED5 63ED=BDD2 63F4=D4AE 6405=BDC1 641C=CBD1 \
    641E=B8E3 642C=B0E1 642D=B4EE 6444=C9E3 6446=B0DA 6447=D2A1 644A=CCAF 6458=D5AA 6469=C4A6 \
    6478=C3FE 6491=B3C5 6492=C8F6 649E=D7B2 64A4=B3B7 64AD=B2A5 64CD=B2D9 64E6=B2C1 652F=D6A7 \
    6536=CAD5 6539=B8C4 653B=B9A5 653E=B7C5 653F=D5FE 6545=B9CA 6548=D0A7 654C=B5D0 654F=C3F4 \
    6551=BEC8 6559=BDCC 6562=B8D2 6563=C9A2 656C=BEB4 6570=CAFD 6572=C7C3 6574=D5FB 6587=CEC4 \
    6591=B0DF 6597=B6B7 6599=C1CF 659C=D0B1 65A4=BDEF 65A5=B3E2 65AD=B6CF 65AF=CBB9 65B0=D0C2 \
    65B9=B7BD 65BD=CAA9 65C1=C5D4 65C5=C2C3 65CB=D0FD 65CF=D7E5 65D7=C6EC 65E0=CEDE 65E2=BCC8 \
    65E5=C8D5 65E6=B5A9 65E7=BEC9 65E8=D6BC 65E9=D4E7 65EC=D1AE 65F1=BAB5 65F6=CAB1 65FA=CDFA \
    6602=B0BA 6606=C0A5 660C=B2FD 660E=C3F7 660F=BBE8 6613=D2D7 661F=D0C7 6620=D3B3 6625=B4BA \
    6628=D7F2 662F=CAC7 663E=CFD4 664B=BDFA 6652=C9B9 6653=CFFE 665A=CDED 6668=B3BF 666E=C6D5 \
    666F=BEB0 6676=BEA7 667A=D6C7 6682=D4DD 6696=C5AF 6697=B0B5 66B4=B1A9 66F0=D4BB 66F2=C7FA \
    66F4=B8FC 66F9=B2DC 66FC=C2FC 66FE=D4F8 66FF=CCE6 6700=D7EE 6708=D4C2 6709=D3D0 670B=C5F3 \
    670D=B7FE 6717=C0CA 671B=CDFB 671D=B3AF 671F=C6DA 6728=C4BE 672A=CEB4 672B=C4A9 672C=B1BE \
    672F=CAF5 6731=D6EC 6735=B6E4 673A=BBFA 6740=C9B1 6742=D4D3 6743=C8A8 6746=B8CB 674E=C0EE \
    6750=B2C4 6751=B4E5 675C=B6C5 675F=CAF8 6761=CCF5 6765=C0B4 6768=D1EE 676D=BABC 676F=B1AD \
    6770=BDDC 677E=CBC9 677F=B0E5 6781=BCAB 6784=B9B9 6790=CEF6 6797=C1D6 679C=B9FB 679D=D6A6 \
    67AA=C7B9 67AF=BFDD 67B6=BCDC 67C4=B1FA 67D0=C4B3 67D3=C8BE 67D4=C8E1 67E5=B2E9 67EC=BCED \
    67EF=BFC2 67F1=D6F9 67F3=C1F8 67F4=B2F1 6807=B1EA 680F=C0B8 6811=CAF7 6821=D0A3 682A=D6EA \
    6837=D1F9 6838=BACB 6839=B8F9 683C=B8F1 683D=D4D4 6842=B9F0 6843=CCD2 6846=BFF2 6848=B0B8 \
    684C=D7C0 6851=C9A3 6863=B5B5 6865=C7C5"

/-- GB18030 codes, code points 6881 to 7530 -/
def gb180304 : List (Nat × Nat) :=
  classes! "6881=C1BA 6885=C3B7 68A6=C3CE 68AF=CCDD 68B0=D0B5 68C0=BCEC 68C9=C3DE 68CB=C6E5 68D2=B0F4 \
    68DA=C5EF 68EE=C9AD 68F1=C0E2 690D=D6B2 695A=B3FE 697C=C2A5 6982=B8C5 69FD=B2DB 6A21=C4A3 \
    6A2A=BAE1 6A61=CFF0 6B21=B4CE 6B22=BBB6 6B23=D0C0 6B27=C5B7 6B32=D3FB 6B3A=C6DB 6B3E=BFEE \
    6B47=D0AA 6B4C=B8E8 6B62=D6B9 6B63=D5FD 6B64=B4CB 6B65=B2BD 6B66=CEE4 6B6A=CDE1 6B7B=CBC0 \
    6B8A=CAE2 6B8B=B2D0 6B96=D6B3 6BB5=B6CE 6BBF=B5EE 6BC1=BBD9 6BC5=D2E3 6BCD=C4B8 6BCF=C3BF \
    6BD2=B6BE 6BD4=B1C8 6BD5=B1CF 6BDB=C3AB 6BEB=BAC1 6C0F=CACF 6C11=C3F1 6C14=C6F8 6C22=C7E2 \
    6C27=D1F5 6C28=B0B1 6C2E=B5AA 6C2F=C2C8 6C34=CBAE 6C38=D3C0 6C41=D6AD 6C42=C7F3 6C47=BBE3 \
    6C49=BABA 6C57=BAB9 6C5F=BDAD 6C60=B3D8 6C61=CEDB 6C64=CCC0 6C6A=CDF4 6C7D=C6FB 6C88=C9F2 \
    6C89=B3C1 6C99=C9B3 6C9F=B9B5 6CA1=C3BB 6CAB=C4AD 6CB3=BAD3 6CB8=B7D0 6CB9=D3CD 6CBB=D6CE \
    6CBF=D1D8 6CC9=C8AA 6CD5=B7A8 6CDB=B7BA 6CE1=C5DD 6CE2=B2A8 6CE5=C4E0 6CE8=D7A2 6CEA=C0E1 \
    6CF0=CCA9 6CF5=B1C3 6CFC=C6C3 6CFD=D4F3 6D01=BDE0 6D0B=D1F3 6D17=CFB4 6D1B=C2E5 6D1E=B6B4 \
    6D25=BDF2 6D2A=BAE9 6D32=D6DE 6D3B=BBEE 6D3E=C5C9 6D41=C1F7 6D45=C7B3 6D46=BDAC 6D47=BDBD \
    6D4B=B2E2 6D4E=BCC3 6D53=C5A8 6D59=D5E3 6D69=BAC6 6D6A=C0CB 6D6E=B8A1 6D77=BAA3 6D78=BDFE \
    6D82=CDBF 6D88=CFFB 6D89=C9E6 6D8C=D3BF 6DA4=B5D3 6DA6=C8F3 6DA8=D5C7 6DB2=D2BA 6DC0=B5ED \
    6DE1=B5AD 6DEE=BBB4 6DF1=C9EE 6DF7=BBEC 6DFB=CCED 6E05=C7E5 6E10=BDA5 6E14=D3E6 6E17=C9F8 \
    6E20=C7FE 6E21=B6C9 6E29=CEC2 6E2F=B8DB 6E38=D3CE 6E56=BAFE 6E58=CFE6 6E7E=CDE5 6E7F=CAAA \
    6E90=D4B4 6E9C=C1EF 6EAA=CFAA 6EB6=C8DC 6ED1=BBAC 6EDA=B9F6 6EE1=C2FA 6EE4=C2CB 6EE8=B1F5 \
    6EE9=CCB2 6EF4=B5CE 6F02=C6AF 6F06=C6E1 6F0F=C2A9 6F14=D1DD 6F2B=C2FE 6F5C=C7B1 6F6E=B3B1 \
    6FC0=BCA4 704C=B9E0 706B=BBF0 706D=C3F0 706F=B5C6 7070=BBD2 7075=C1E9 707E=D4D6 7089=C2AF \
    708E=D1D7 7092=B3B4 70AD=CCBF 70AE=C5DA 70B8=D5A8 70B9=B5E3 70BC=C1B6 70C2=C0C3 70C3=CCFE \
    70C8=C1D2 70D8=BAE6 70DF=D1CC 70E6=B7B3 70E7=C9D5 70ED=C8C8 70EF=CFA9 70F7=CDE9 7126=BDB9 \
    7130=D1E6 7136=C8BB 7164=C3BA 7167=D5D5 716E=D6F3 718A=D0DC 7194=C8DB 7199=CEF5 719F=CAEC \
    71C3=C8BC 71D5=D1E0 71E5=D4EF 7206=B1AC 722C=C5C0 7231=B0AE 7236=B8B8 7237=D2AF 7238=B0D6 \
    7239=B5F9 7247=C6AC 7248=B0E6 724C=C5C6 7259=D1C0 725B=C5A3 7262=C0CE 7267=C4C1 7269=CEEF \
    7272=C9FC 7275=C7A3 7279=CCD8 727A=CEFE 72AF=B7B8 72B6=D7B4 72C2=BFF1 72D7=B9B7 72E0=BADD \
    72EC=B6C0 72F1=D3FC 731B=C3CD 732A=D6ED 732E=CFD7 7384=D0FE 7387=C2CA 7389=D3F1 738B=CDF5 \
    73A9=CDE6 73AF=BBB7 73B0=CFD6 73BB=B2A3 73CD=D5E4 73E0=D6E9 73ED=B0E0 7403=C7F2 7406=C0ED \
    7434=C7D9 745E=C8F0 7483=C1A7 74DC=B9CF 74E6=CDDF 74F6=C6BF 74F7=B4C9 7518=B8CA 751A=C9F5 \
    751C=CCF0 751F=C9FA 7528=D3C3 7530=CCEF"

/-- GB18030 codes, code points 7531 to 809A -/
def gb180305 : List (Nat × Nat) :=
  classes! "7531=D3C9 7532=BCD7 7533=C9EA 7535=B5E7 7537=C4D0 753B=BBAD 7545=B3A9 754C=BDE7 7559=C1F4 \
    755C=D0F3 7565=C2D4 756A=B7AC 7586=BDAE 758F=CAE8 7591=D2C9 7597=C1C6 75AB=D2DF 75AF=B7E8 \
    75BE=BCB2 75C5=B2A1 75C7=D6A2 75D5=BADB 75DB=CDB4 7626=CADD 767B=B5C7 767D=B0D7 767E=B0D9 \
    7684=B5C4 7686=BDD4 7687=BBCA 76AE=C6A4 76B1=D6E5 76C6=C5E8 76C8=D3AF 76CA=D2E6 76D0=D1CE \
    76D1=BCE0 76D6=B8C7 76D7=B5C1 76D8=C5CC 76DB=CAA2 76DF=C3CB 76EE=C4BF 76F4=D6B1 76F8=CFE0 \
    76FE=B6DC 7701=CAA1 7709=C3BC 770B=BFB4 771F=D5E6 773C=D1DB 7740=D7C5 775B=BEA6 7761=CBAF \
    7763=B6BD 77A7=C7C6 77DB=C3AC 77E5=D6AA 77E9=BED8 77ED=B6CC 77EE=B0AB 77F3=CAAF 77FF=BFF3 \
    7801=C2EB 7802=C9B0 780D=BFB3 7814=D1D0 7816=D7A9 7834=C6C6 7840=B4A1 7845=B9E8 785D=CFF5 \
    786B=C1F2 786C=D3B2 786E=C8B7 788D=B0AD 788E=CBE9 7897=CDEB 78A7=B1CC 78B0=C5F6 78B1=BCEE \
    78B3=CCBC 78C1=B4C5 78E8=C4A5 78F7=C1D7 793A=CABE 793C=C0F1 793E=C9E7 7956=D7E6 795D=D7A3 \
    795E=C9F1 7965=CFE9 7968=C6B1 7978=BBF6 7981=BDFB 798F=B8A3 79BB=C0EB 79C0=D0E3 79C1=CBBD \
    79CB=C7EF 79CD=D6D6 79D1=BFC6 79D2=C3EB 79D8=C3D8 79DF=D7E2 79E6=C7D8 79E7=D1ED 79E9=D6C8 \
    79EF=BBFD 79F0=B3C6 79FB=D2C6 7A00=CFA1 7A0B=B3CC 7A0D=C9D4 7A0E=CBB0 7A33=CEC8 7A3B=B5BE \
    7A3F=B8E5 7A46=C4C2 7A57=CBEB 7A76=BEBF 7A77=C7EE 7A7A=BFD5 7A7F=B4A9 7A81=CDBB 7A97=B4B0 \
    7A9D=CED1 7ACB=C1A2 7AD9=D5BE 7ADE=BEBA 7ADF=BEB9 7AE0=D5C2 7AE5=CDAF 7AEF=B6CB 7AF9=D6F1 \
    7B14=B1CA 7B26=B7FB 7B2C=B5DA 7B3C=C1FD 7B49=B5C8 7B4B=BDEE 7B51=D6FE 7B52=CDB2 7B54=B4F0 \
    7B56=B2DF 7B5B=C9B8 7B79=B3EF 7B7E=C7A9 7B80=BCF2 7B97=CBE3 7BA1=B9DC 7BAD=BCFD 7BB1=CFE4 \
    7BC7=C6AA 7C27=BBC9 7C4D=BCAE 7C73=C3D7 7C7B=C0E0 7C89=B7DB 7C92=C1A3 7C97=B4D6 7C98=D5B3 \
    7CAA=B7E0 7CAE=C1B8 7CBE=BEAB 7CCA=BAFD 7CD6=CCC7 7CFB=CFB5 7D20=CBD8 7D22=CBF7 7D27=BDF4 \
    7D2B=D7CF 7D2F=C0DB 7E41=B7B1 7EA0=BEC0 7EA2=BAEC 7EA4=CFCB 7EA6=D4BC 7EA7=BCB6 7EAA=BCCD \
    7EAC=CEB3 7EAF=B4BF 7EB1=C9B4 7EB2=B8D9 7EB3=C4C9 7EB5=D7DD 7EB6=C2DA 7EB7=B7D7 7EB8=D6BD \
    7EB9=CEC6 7EBA=B7C4 7EBF=CFDF 7EC3=C1B7 7EC4=D7E9 7EC5=C9F0 7EC6=CFB8 7EC7=D6AF 7EC8=D6D5 \
    7ECD=C9DC 7ECF=BEAD 7ED2=C8DE 7ED3=BDE1 7ED5=C8C6 7ED8=BBE6 7ED9=B8F8 7EDC=C2E7 7EDD=BEF8 \
    7EDF=CDB3 7EE7=BCCC 7EE9=BCA8 7EEA=D0F7 7EED=D0F8 7EF3=C9FE 7EF4=CEAC 7EFC=D7DB 7EFF=C2CC \
    7F06=C0C2 7F13=BBBA 7F16=B1E0 7F18=D4B5 7F1D=B7EC 7F29=CBF5 7F34=BDC9 7F38=B8D7 7F3A=C8B1 \
    7F50=B9DE 7F51=CDF8 7F57=C2DE 7F5A=B7A3 7F62=B0D5 7F69=D5D6 7F6A=D7EF 7F6E=D6C3 7F72=CAF0 \
    7F8A=D1F2 7F8E=C3C0 7FA4=C8BA 7FBD=D3F0 7FFB=B7AD 7FFC=D2ED 8000=D2AB 8001=C0CF 8003=BFBC \
    8005=D5DF 800C=B6F8 8010=C4CD 8015=B8FB 8017=BAC4 8033=B6FA 804C=D6B0 8054=C1AA 805A=BEDB \
    8083=CBE0 8089=C8E2 808C=BCA1 809A=B6C7"

/-- GB18030 codes, code points 80A0 to 8F91 -/
def gb180306 : List (Nat × Nat) :=
  classes! "80A0=B3A6 80A1=B9C9 80A5=B7CA 80A9=BCE7 80AF=BFCF 80B2=D3FD 80C0=D5CD 80C1=D0B2 80C6=B5A8 \
    80CC=B1B3 80CE=CCA5 80DC=CAA4 80DE=B0FB 80E1=BAFA 80F6=BDBA 80F8=D0D8 80FA=B0B7 80FD=C4DC \
    8102=D6AC 8106=B4E0 8109=C2F6 810F=D4E0 8111=C4D4 811A=BDC5 8131=CDD1 8138=C1B3 814A=C0B0 \
    8150=B8AF 8154=C7BB 8170=D1FC 8179=B8B9 817E=CCDA 817F=CDC8 819C=C4A4 81A8=C5F2 81C2=B1DB \
    81E3=B3BC 81EA=D7D4 81F3=D6C1 81F4=D6C2 820D=C9E1 8212=CAE6 821E=CEE8 821F=D6DB 822A=BABD \
    822C=B0E3 8230=BDA2 8239=B4AC 8247=CDA7 826F=C1BC 8270=BCE8 8272=C9AB 827A=D2D5 8282=BDDA \
    82AF=D0BE 82B1=BBA8 82B3=B7BC 82BD=D1BF 82CD=B2D4 82CF=CBD5 82D7=C3E7 82E5=C8F4 82E6=BFE0 \
    82EF=B1BD 82F1=D3A2 8303=B7B6 830E=BEA5 8336=B2E8 8349=B2DD 8352=BBC4 8361=B5B4 8363=C8D9 \
    836F=D2A9 8377=BAC9 83AB=C4AA 83B1=C0B3 83B2=C1AB 83B7=BBF1 83CC=BEFA 83DC=B2CB 8404=CCD1 \
    8425=D3AA 8427=CFF4 8428=C8F8 843D=C2E4 8461=C6CF 8463=B6AD 8471=B4D0 848B=BDAF 8499=C3C9 \
    84B8=D5F4 84C4=D0EE 84DD=C0B6 8521=B2CC 852C=CADF 8584=B1A1 85AF=CAED 85CF=B2D8 864E=BBA2 \
    8651=C2C7 865A=D0E9 866B=B3E6 867D=CBE4 867E=CFBA 8680=CAB4 86CB=B5B0 8721=C0AF 878D=C8DA \
    87BA=C2DD 8840=D1AA 884C=D0D0 8857=BDD6 8861=BAE2 8863=D2C2 8865=B2B9 8868=B1ED 8870=CBA5 \
    8881=D4AC 888B=B4FC 8896=D0E4 88AB=B1BB 88AD=CFAE 88C1=B2C3 88C2=C1D1 88C5=D7B0 88D5=D4A3 \
    897F=CEF7 8981=D2AA 8986=B8B2 89C1=BCFB 89C2=B9DB 89C4=B9E6 89C6=CAD3 89C8=C0C0 89C9=BEF5 \
    89D2=BDC7 89E3=BDE2 89E6=B4A5 8A00=D1D4 8B66=BEAF 8BA1=BCC6 8BA2=B6A9 8BA4=C8CF 8BA8=CCD6 \
    8BA9=C8C3 8BAD=D1B5 8BAE=D2E9 8BAF=D1B6 8BB0=BCC7 8BB2=BDB2 8BB8=D0ED 8BBA=C2DB 8BBC=CBCF \
    8BBE=C9E8 8BBF=B7C3 8BC1=D6A4 8BC4=C6C0 8BC6=CAB6 8BC9=CBDF 8BCD=B4CA 8BD1=D2EB 8BD5=CAD4 \
    8BD7=CAAB 8BDA=B3CF 8BDD=BBB0 8BE5=B8C3 8BE6=CFEA 8BEC=CEDC 8BED=D3EF 8BEF=CEF3 8BF4=CBB5 \
    8BF7=C7EB 8BF8=D6EE 8BFA=C5B5 8BFB=B6C1 8BFE=BFCE 8C01=CBAD 8C03=B5F7 8C08=CCB8 8C0A=D2EA \
    8C0B=C4B1 8C10=D0B3 8C13=CEBD 8C22=D0BB 8C31=C6D7 8C37=B9C8 8C46=B6B9 8C61=CFF3 8C6A=BAC0 \
    8C8C=C3B2 8D1D=B1B4 8D1F=B8BA 8D21=B9B1 8D22=B2C6 8D23=D4F0 8D24=CFCD 8D25=B0DC 8D27=BBF5 \
    8D28=D6CA 8D2A=CCB0 8D2B=C6B6 8D2D=B9BA 8D2E=D6FC 8D2F=B9E1 8D34=CCF9 8D35=B9F3 8D37=B4FB \
    8D38=C3B3 8D39=B7D1 8D3A=BAD8 8D44=D7CA 8D4B=B8B3 8D4F=C9CD 8D56=C0B5 8D5B=C8FC 8D5E=D4DE \
    8D64=B3E0 8D6B=BAD5 8D70=D7DF 8D74=B8B0 8D75=D5D4 8D76=B8CF 8D77=C6F0 8D85=B3AC 8D8A=D4BD \
    8D8B=C7F7 8DA3=C8A4 8DB3=D7E3 8DC3=D4BE 8DD1=C5DC 8DDD=BEE0 8DDF=B8FA 8DE8=BFE7 8DEF=C2B7 \
    8DF3=CCF8 8DF5=BCF9 8E0F=CCA4 8EAB=C9ED 8EBA=CCC9 8F66=B3B5 8F67=D4FE 8F68=B9EC 8F6C=D7AA \
    8F6E=C2D6 8F6F=C8ED 8F70=BAE4 8F74=D6E1 8F7B=C7E1 8F7D=D4D8 8F83=BDCF 8F85=B8A8 8F86=C1BE \
    8F88=B1B2 8F89=BBD4 8F8A=B9F5 8F91=BCAD"

/-- GB18030 codes, code points 8F93 to 9F99 -/
def gb180307 : List (Nat × Nat) :=
  classes! "8F93=CAE4 8F96=CFBD 8F9B=D0C1 8F9E=B4C7 8F9F=B1D9 8FA8=B1E6 8FA9=B1E7 8FB9=B1DF 8FBD=C1C9 \
    8FBE=B4EF 8FC1=C7A8 8FC5=D1B8 8FC7=B9FD 8FC8=C2F5 8FCE=D3AD 8FD0=D4CB 8FD1=BDFC 8FD4=B7B5 \
    8FD8=BBB9 8FD9=D5E2 8FDB=BDF8 8FDC=D4B6 8FDD=CEA5 8FDE=C1AC 8FDF=B3D9 8FEB=C6C8 8FF0=CAF6 \
    8FF7=C3D4 8FF9=BCA3 8FFD=D7B7 9000=CDCB 9001=CBCD 9002=CACA 9003=CCD3 9006=C4E6 9009=D1A1 \
    900F=CDB8 9010=D6F0 9012=B5DD 9014=CDBE 901A=CDA8 901F=CBD9 9020=D4EC 902E=B4FE 903B=C2DF \
    903C=B1C6 9042=CBEC 9047=D3F6 904D=B1E9 9053=B5C0 9057=D2C5 906D=D4E2 9075=D7F1 907F=B1DC \
    9080=D1FB 9093=B5CB 90A3=C4C7 90A6=B0EE 90AE=D3CA 90B5=C9DB 90BB=C1DA 90CE=C0C9 90D1=D6A3 \
    90E8=B2BF 90ED=B9F9 90FD=B6BC 914D=C5E4 9152=BEC6 915A=B7D3 916F=F5A5 9171=BDB4 9175=BDCD \
    9176=C3B8 9177=BFE1 9178=CBE1 9187=B4BC 9192=D0D1 91C7=B2C9 91CA=CACD 91CC=C0EF 91CD=D6D8 \
    91CE=D2B0 91CF=C1BF 91D1=BDF0 9274=BCF8 9488=D5EB 9489=B6A4 9499=B8C6 949F=D6D3 94A0=C4C6 \
    94A2=B8D6 94A9=B9B3 94B1=C7AE 94BB=D7EA 94BE=BCD8 94C1=CCFA 94C3=C1E5 94C5=C7A6 94D2=EEEF \
    94DC=CDAD 94DD=C2C1 94F6=D2F8 94F8=D6FD 94FA=C6CC 94FE=C1B4 9500=CFFA 9501=CBF8 9505=B9F8 \
    950B=B7E6 9510=C8F1 9519=B4ED 9521=CEFD 9525=D7B6 9526=BDF5 952D=B6A7 952E=BCFC 953B=B6CD \
    9547=D5F2 955C=BEB5 957F=B3A4 95E8=C3C5 95EA=C9C1 95ED=B1D5 95EE=CECA 95F2=CFD0 95F4=BCE4 \
    95F7=C3C6 95F9=C4D6 95FB=CEC5 9600=B7A7 9601=B8F3 9605=D4C4 9614=C0AB 961F=B6D3 9632=B7C0 \
    9633=D1F4 9634=D2F5 9635=D5F3 9636=BDD7 963B=D7E8 963F=B0A2 9644=B8BD 9645=BCCA 9646=C2BD \
    9648=B3C2 964D=BDB5 9650=CFDE 9655=C9C2 9662=D4BA 9664=B3FD 9669=CFD5 966A=C5E3 9675=C1EA \
    9676=CCD5 9677=CFDD 9686=C2A1 968F=CBE6 9690=D2FE 9694=B8F4 9699=CFB6 969C=D5CF 96B6=C1A5 \
    96BE=C4D1 96C4=D0DB 96C5=D1C5 96C6=BCAF 96CF=B3FB 96D5=B5F1 96E8=D3EA 96EA=D1A9 96F6=C1E3 \
    96F7=C0D7 96FE=CEED 9700=D0E8 9707=D5F0 9709=C3B9 970D=BBF4 971E=CFBC 9732=C2B6 9738=B0D4 \
    9752=C7E0 9759=BEB2 975E=B7C7 9760=BFBF 9762=C3E6 9769=B8EF 978B=D0AC 97E6=CEA4 97E9=BAAB \
    97F3=D2F4 9875=D2B3 9876=B6A5 9879=CFEE 987A=CBB3 987B=D0EB 987D=CDE7 987E=B9CB 987F=B6D9 \
    9884=D4A4 9886=C1EC 9887=C6C4 9891=C6B5 9897=BFC5 9898=CCE2 989C=D1D5 989D=B6EE 98CE=B7E7 \
    98D8=C6AE 98DE=B7C9 98DF=CAB3 996D=B7B9 996E=D2FB 9970=CACE 9971=B1A5 9972=CBC7 997C=B1FD \
    997F=B6F6 9986=B9DD 998F=C1F3 9996=CAD7 9999=CFE3 9A6C=C2ED 9A71=C7FD 9A73=B2B5 9A76=CABB \
    9A7B=D7A4 9A7E=BCDD 9A82=C2EE 9A8C=D1E9 9A91=C6EF 9A97=C6AD 9AA4=D6E8 9AA8=B9C7 9AD8=B8DF \
    9B3C=B9ED 9B4F=CEBA 9C7C=D3E3 9C81=C2B3 9C9C=CFCA 9E1F=C4F1 9E21=BCA6 9E23=C3F9 9E2D=D1BC \
    9E3F=BAE8 9EA6=C2F3 9EBB=C2E9 9EC4=BBC6 9ECE=C0E8 9ED1=BADA 9ED8=C4AC 9F13=B9C4 9F3B=B1C7 \
    9F50=C6EB 9F7F=B3DD 9F84=C1E4 9F99=C1FA"

/-- GB18030 codes of all characters of the Chinese list, by code point -/
def gb18030 : List (Nat × Nat) :=
  [gb180300, gb180301, gb180302, gb180303, gb180304, gb180305, gb180306, gb180307].flatten

end Kms.Data
