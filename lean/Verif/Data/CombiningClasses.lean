import Verif.Data.Tables
/-
Non-zero canonical combining classes of Unicode 14.0.0.  `K=C` says that code point K has class C
(both hexadecimal).
-/
namespace Kms.Data

/-- non-zero combining class, code points 300 to 7F3 -/
def combiningClasses00 : List (Nat × Nat) :=
  classes! "300=E6 301=E6 302=E6 303=E6 304=E6 305=E6 306=E6 307=E6 308=E6 309=E6 30A=E6 30B=E6 30C=E6 30D=E6 \
    30E=E6 30F=E6 310=E6 311=E6 312=E6 313=E6 314=E6 315=E8 316=DC 317=DC 318=DC 319=DC 31A=E8 31B=D8 \
    31C=DC 31D=DC 31E=DC 31F=DC 320=DC 321=CA 322=CA 323=DC 324=DC 325=DC 326=DC 327=CA 328=CA 329=DC \
    32A=DC 32B=DC 32C=DC 32D=DC 32E=DC 32F=DC 330=DC 331=DC 332=DC 333=DC 334=1 335=1 336=1 337=1 \
    338=1 339=DC 33A=DC 33B=DC 33C=DC 33D=E6 33E=E6 33F=E6 340=E6 341=E6 342=E6 343=E6 344=E6 345=F0 \
    346=E6 347=DC 348=DC 349=DC 34A=E6 34B=E6 34C=E6 34D=DC 34E=DC 350=E6 351=E6 352=E6 353=DC 354=DC \
    355=DC 356=DC 357=E6 358=E8 359=DC 35A=DC 35B=E6 35C=E9 35D=EA 35E=EA 35F=E9 360=EA 361=EA 362=E9 \
    363=E6 364=E6 365=E6 366=E6 367=E6 368=E6 369=E6 36A=E6 36B=E6 36C=E6 36D=E6 36E=E6 36F=E6 483=E6 \
    484=E6 485=E6 486=E6 487=E6 591=DC 592=E6 593=E6 594=E6 595=E6 596=DC 597=E6 598=E6 599=E6 59A=DE \
    59B=DC 59C=E6 59D=E6 59E=E6 59F=E6 5A0=E6 5A1=E6 5A2=DC 5A3=DC 5A4=DC 5A5=DC 5A6=DC 5A7=DC 5A8=E6 \
    5A9=E6 5AA=DC 5AB=E6 5AC=E6 5AD=DE 5AE=E4 5AF=E6 5B0=A 5B1=B 5B2=C 5B3=D 5B4=E 5B5=F 5B6=10 \
    5B7=11 5B8=12 5B9=13 5BA=13 5BB=14 5BC=15 5BD=16 5BF=17 5C1=18 5C2=19 5C4=E6 5C5=DC 5C7=12 610=E6 \
    611=E6 612=E6 613=E6 614=E6 615=E6 616=E6 617=E6 618=1E 619=1F 61A=20 64B=1B 64C=1C 64D=1D 64E=1E \
    64F=1F 650=20 651=21 652=22 653=E6 654=E6 655=DC 656=DC 657=E6 658=E6 659=E6 65A=E6 65B=E6 65C=DC \
    65D=E6 65E=E6 65F=DC 670=23 6D6=E6 6D7=E6 6D8=E6 6D9=E6 6DA=E6 6DB=E6 6DC=E6 6DF=E6 6E0=E6 6E1=E6 \
    6E2=E6 6E3=DC 6E4=E6 6E7=E6 6E8=E6 6EA=DC 6EB=E6 6EC=E6 6ED=DC 711=24 730=E6 731=DC 732=E6 733=E6 \
    734=DC 735=E6 736=E6 737=DC 738=DC 739=DC 73A=E6 73B=DC 73C=DC 73D=E6 73E=DC 73F=E6 740=E6 741=E6 \
    742=DC 743=E6 744=DC 745=E6 746=DC 747=E6 748=DC 749=E6 74A=E6 7EB=E6 7EC=E6 7ED=E6 7EE=E6 7EF=E6 \
    7F0=E6 7F1=E6 7F2=DC 7F3=E6"

/-- non-zero combining class, code points 7FD to 1DC8 -/
def combiningClasses01 : List (Nat × Nat) :=
  classes! "7FD=DC 816=E6 817=E6 818=E6 819=E6 81B=E6 81C=E6 81D=E6 81E=E6 81F=E6 820=E6 821=E6 822=E6 823=E6 \
    825=E6 826=E6 827=E6 829=E6 82A=E6 82B=E6 82C=E6 82D=E6 859=DC 85A=DC 85B=DC 898=E6 899=DC 89A=DC \
    89B=DC 89C=E6 89D=E6 89E=E6 89F=E6 8CA=E6 8CB=E6 8CC=E6 8CD=E6 8CE=E6 8CF=DC 8D0=DC 8D1=DC 8D2=DC \
    8D3=DC 8D4=E6 8D5=E6 8D6=E6 8D7=E6 8D8=E6 8D9=E6 8DA=E6 8DB=E6 8DC=E6 8DD=E6 8DE=E6 8DF=E6 8E0=E6 \
    8E1=E6 8E3=DC 8E4=E6 8E5=E6 8E6=DC 8E7=E6 8E8=E6 8E9=DC 8EA=E6 8EB=E6 8EC=E6 8ED=DC 8EE=DC 8EF=DC \
    8F0=1B 8F1=1C 8F2=1D 8F3=E6 8F4=E6 8F5=E6 8F6=DC 8F7=E6 8F8=E6 8F9=DC 8FA=DC 8FB=E6 8FC=E6 8FD=E6 \
    8FE=E6 8FF=E6 93C=7 94D=9 951=E6 952=DC 953=E6 954=E6 9BC=7 9CD=9 9FE=E6 A3C=7 A4D=9 ABC=7 ACD=9 \
    B3C=7 B4D=9 BCD=9 C3C=7 C4D=9 C55=54 C56=5B CBC=7 CCD=9 D3B=9 D3C=9 D4D=9 DCA=9 E38=67 E39=67 \
    E3A=9 E48=6B E49=6B E4A=6B E4B=6B EB8=76 EB9=76 EBA=9 EC8=7A EC9=7A ECA=7A ECB=7A F18=DC F19=DC \
    F35=DC F37=DC F39=D8 F71=81 F72=82 F74=84 F7A=82 F7B=82 F7C=82 F7D=82 F80=82 F82=E6 F83=E6 F84=9 \
    F86=E6 F87=E6 FC6=DC 1037=7 1039=9 103A=9 108D=DC 135D=E6 135E=E6 135F=E6 1714=9 1715=9 1734=9 \
    17D2=9 17DD=E6 18A9=E4 1939=DE 193A=E6 193B=DC 1A17=E6 1A18=DC 1A60=9 1A75=E6 1A76=E6 1A77=E6 \
    1A78=E6 1A79=E6 1A7A=E6 1A7B=E6 1A7C=E6 1A7F=DC 1AB0=E6 1AB1=E6 1AB2=E6 1AB3=E6 1AB4=E6 1AB5=DC \
    1AB6=DC 1AB7=DC 1AB8=DC 1AB9=DC 1ABA=DC 1ABB=E6 1ABC=E6 1ABD=DC 1ABF=DC 1AC0=DC 1AC1=E6 1AC2=E6 \
    1AC3=DC 1AC4=DC 1AC5=E6 1AC6=E6 1AC7=E6 1AC8=E6 1AC9=E6 1ACA=DC 1ACB=E6 1ACC=E6 1ACD=E6 1ACE=E6 \
    1B34=7 1B44=9 1B6B=E6 1B6C=DC 1B6D=E6 1B6E=E6 1B6F=E6 1B70=E6 1B71=E6 1B72=E6 1B73=E6 1BAA=9 \
    1BAB=9 1BE6=7 1BF2=9 1BF3=9 1C37=7 1CD0=E6 1CD1=E6 1CD2=E6 1CD4=1 1CD5=DC 1CD6=DC 1CD7=DC 1CD8=DC \
    1CD9=DC 1CDA=E6 1CDB=E6 1CDC=DC 1CDD=DC 1CDE=DC 1CDF=DC 1CE0=E6 1CE2=1 1CE3=1 1CE4=1 1CE5=1 \
    1CE6=1 1CE7=1 1CE8=1 1CED=DC 1CF4=E6 1CF8=E6 1CF9=E6 1DC0=E6 1DC1=E6 1DC2=DC 1DC3=E6 1DC4=E6 \
    1DC5=E6 1DC6=E6 1DC7=E6 1DC8=E6"

/-- non-zero combining class, code points 1DC9 to 1136A -/
def combiningClasses02 : List (Nat × Nat) :=
  classes! "1DC9=E6 1DCA=DC 1DCB=E6 1DCC=E6 1DCD=EA 1DCE=D6 1DCF=DC 1DD0=CA 1DD1=E6 1DD2=E6 1DD3=E6 1DD4=E6 \
    1DD5=E6 1DD6=E6 1DD7=E6 1DD8=E6 1DD9=E6 1DDA=E6 1DDB=E6 1DDC=E6 1DDD=E6 1DDE=E6 1DDF=E6 1DE0=E6 \
    1DE1=E6 1DE2=E6 1DE3=E6 1DE4=E6 1DE5=E6 1DE6=E6 1DE7=E6 1DE8=E6 1DE9=E6 1DEA=E6 1DEB=E6 1DEC=E6 \
    1DED=E6 1DEE=E6 1DEF=E6 1DF0=E6 1DF1=E6 1DF2=E6 1DF3=E6 1DF4=E6 1DF5=E6 1DF6=E8 1DF7=E4 1DF8=E4 \
    1DF9=DC 1DFA=DA 1DFB=E6 1DFC=E9 1DFD=DC 1DFE=E6 1DFF=DC 20D0=E6 20D1=E6 20D2=1 20D3=1 20D4=E6 \
    20D5=E6 20D6=E6 20D7=E6 20D8=1 20D9=1 20DA=1 20DB=E6 20DC=E6 20E1=E6 20E5=1 20E6=1 20E7=E6 \
    20E8=DC 20E9=E6 20EA=1 20EB=1 20EC=DC 20ED=DC 20EE=DC 20EF=DC 20F0=E6 2CEF=E6 2CF0=E6 2CF1=E6 \
    2D7F=9 2DE0=E6 2DE1=E6 2DE2=E6 2DE3=E6 2DE4=E6 2DE5=E6 2DE6=E6 2DE7=E6 2DE8=E6 2DE9=E6 2DEA=E6 \
    2DEB=E6 2DEC=E6 2DED=E6 2DEE=E6 2DEF=E6 2DF0=E6 2DF1=E6 2DF2=E6 2DF3=E6 2DF4=E6 2DF5=E6 2DF6=E6 \
    2DF7=E6 2DF8=E6 2DF9=E6 2DFA=E6 2DFB=E6 2DFC=E6 2DFD=E6 2DFE=E6 2DFF=E6 302A=DA 302B=E4 302C=E8 \
    302D=DE 302E=E0 302F=E0 3099=8 309A=8 A66F=E6 A674=E6 A675=E6 A676=E6 A677=E6 A678=E6 A679=E6 \
    A67A=E6 A67B=E6 A67C=E6 A67D=E6 A69E=E6 A69F=E6 A6F0=E6 A6F1=E6 A806=9 A82C=9 A8C4=9 A8E0=E6 \
    A8E1=E6 A8E2=E6 A8E3=E6 A8E4=E6 A8E5=E6 A8E6=E6 A8E7=E6 A8E8=E6 A8E9=E6 A8EA=E6 A8EB=E6 A8EC=E6 \
    A8ED=E6 A8EE=E6 A8EF=E6 A8F0=E6 A8F1=E6 A92B=DC A92C=DC A92D=DC A953=9 A9B3=7 A9C0=9 AAB0=E6 \
    AAB2=E6 AAB3=E6 AAB4=DC AAB7=E6 AAB8=E6 AABE=E6 AABF=E6 AAC1=E6 AAF6=9 ABED=9 FB1E=1A FE20=E6 \
    FE21=E6 FE22=E6 FE23=E6 FE24=E6 FE25=E6 FE26=E6 FE27=DC FE28=DC FE29=DC FE2A=DC FE2B=DC FE2C=DC \
    FE2D=DC FE2E=E6 FE2F=E6 101FD=DC 102E0=DC 10376=E6 10377=E6 10378=E6 10379=E6 1037A=E6 10A0D=DC \
    10A0F=E6 10A38=E6 10A39=1 10A3A=DC 10A3F=9 10AE5=E6 10AE6=DC 10D24=E6 10D25=E6 10D26=E6 10D27=E6 \
    10EAB=E6 10EAC=E6 10F46=DC 10F47=DC 10F48=E6 10F49=E6 10F4A=E6 10F4B=DC 10F4C=E6 10F4D=DC \
    10F4E=DC 10F4F=DC 10F50=DC 10F82=E6 10F83=DC 10F84=E6 10F85=DC 11046=9 11070=9 1107F=9 110B9=9 \
    110BA=7 11100=E6 11101=E6 11102=E6 11133=9 11134=9 11173=7 111C0=9 111CA=7 11235=9 11236=7 \
    112E9=7 112EA=9 1133B=7 1133C=7 1134D=9 11366=E6 11367=E6 11368=E6 11369=E6 1136A=E6"

/-- non-zero combining class, code points 1136B to 1E94A -/
def combiningClasses03 : List (Nat × Nat) :=
  classes! "1136B=E6 1136C=E6 11370=E6 11371=E6 11372=E6 11373=E6 11374=E6 11442=9 11446=7 1145E=E6 114C2=9 \
    114C3=7 115BF=9 115C0=7 1163F=9 116B6=9 116B7=7 1172B=9 11839=9 1183A=7 1193D=9 1193E=9 11943=7 \
    119E0=9 11A34=9 11A47=9 11A99=9 11C3F=9 11D42=7 11D44=9 11D45=9 11D97=9 16AF0=1 16AF1=1 16AF2=1 \
    16AF3=1 16AF4=1 16B30=E6 16B31=E6 16B32=E6 16B33=E6 16B34=E6 16B35=E6 16B36=E6 16FF0=6 16FF1=6 \
    1BC9E=1 1D165=D8 1D166=D8 1D167=1 1D168=1 1D169=1 1D16D=E2 1D16E=D8 1D16F=D8 1D170=D8 1D171=D8 \
    1D172=D8 1D17B=DC 1D17C=DC 1D17D=DC 1D17E=DC 1D17F=DC 1D180=DC 1D181=DC 1D182=DC 1D185=E6 \
    1D186=E6 1D187=E6 1D188=E6 1D189=E6 1D18A=DC 1D18B=DC 1D1AA=E6 1D1AB=E6 1D1AC=E6 1D1AD=E6 \
    1D242=E6 1D243=E6 1D244=E6 1E000=E6 1E001=E6 1E002=E6 1E003=E6 1E004=E6 1E005=E6 1E006=E6 \
    1E008=E6 1E009=E6 1E00A=E6 1E00B=E6 1E00C=E6 1E00D=E6 1E00E=E6 1E00F=E6 1E010=E6 1E011=E6 \
    1E012=E6 1E013=E6 1E014=E6 1E015=E6 1E016=E6 1E017=E6 1E018=E6 1E01B=E6 1E01C=E6 1E01D=E6 \
    1E01E=E6 1E01F=E6 1E020=E6 1E021=E6 1E023=E6 1E024=E6 1E026=E6 1E027=E6 1E028=E6 1E029=E6 \
    1E02A=E6 1E130=E6 1E131=E6 1E132=E6 1E133=E6 1E134=E6 1E135=E6 1E136=E6 1E2AE=E6 1E2EC=E6 \
    1E2ED=E6 1E2EE=E6 1E2EF=E6 1E8D0=DC 1E8D1=DC 1E8D2=DC 1E8D3=DC 1E8D4=DC 1E8D5=DC 1E8D6=DC \
    1E944=E6 1E945=E6 1E946=E6 1E947=E6 1E948=E6 1E949=E6 1E94A=7"

/-- non-zero combining class: the whole table, in increasing order of code points -/
def combiningClasses : List (Nat × Nat) :=
  [combiningClasses00, combiningClasses01, combiningClasses02, combiningClasses03].flatten

end Kms.Data
