import Verif.Props.PrimeEnds
import Mathlib.Tactic.IntervalCases

/-! C137 for widths of up to 256 bits: for every class of states a state in which a prime is drawn. -/

namespace Verif.Props
open Verif.Model Verif.Proof Verif.Spec

theorem drawn_0 : Nat.Prime 60647 := by norm_num

theorem drawn_1 : Nat.Prime 3450693007 := prime_leaf 3450693007 60647 33607301 drawn_0 (by decide +kernel)

theorem accepts_1_0 (strict : Bool) : Accepts 1 strict 4109800912608672022#64 :=
  accepts_of 1 (by decide) 4109800912608672022#64 [0xcdad658f#32] (by decide +kernel) (by decide +kernel) drawn_1 strict

theorem drawn_2 : Nat.Prime 16381 := by norm_num

theorem drawn_3 : Nat.Prime 52288153 := prime_leaf 52288153 16381 39467571 drawn_2 (by decide +kernel)

theorem drawn_4 : Nat.Prime 3764747017 := prime_leaf 3764747017 52288153 1733804069 drawn_3 (by decide +kernel)

theorem accepts_1_1 (strict : Bool) : Accepts 1 strict 9035664741427655383#64 :=
  accepts_of 1 (by decide) 9035664741427655383#64 [0xe0657b09#32] (by decide +kernel) (by decide +kernel) drawn_4 strict

theorem drawn_5 : Nat.Prime 4079 := by norm_num

theorem drawn_6 : Nat.Prime 1541863 := prime_leaf 1541863 4079 1292191 drawn_5 (by decide +kernel)

theorem drawn_7 : Nat.Prime 1070052923 := prime_leaf 1070052923 1541863 42669477 drawn_6 (by decide +kernel)

theorem drawn_8 : Nat.Prime 98444868917 := prime_leaf 98444868917 1070052923 71398799693 drawn_7 (by decide +kernel)

theorem drawn_9 : Nat.Prime 1880887665528203 := prime_leaf 1880887665528203 98444868917 964574394732241 drawn_8 (by decide +kernel)

theorem drawn_10 : Nat.Prime 16973130293726503873 := prime_leaf 16973130293726503873 1880887665528203 1647051026770348886 drawn_9 (by decide +kernel)

theorem accepts_2_0 (strict : Bool) : Accepts 2 strict 14127358427157447668#64 :=
  accepts_of 2 (by decide) 14127358427157447668#64 [0x1bfd63c1#32, 0xeb8cac13#32] (by decide +kernel) (by decide +kernel) drawn_10 strict

theorem drawn_11 : Nat.Prime 52103 := by norm_num

theorem drawn_12 : Nat.Prime 134529947 := prime_leaf 134529947 52103 76725703 drawn_11 (by decide +kernel)

theorem drawn_13 : Nat.Prime 339015466441 := prime_leaf 339015466441 134529947 143561131164 drawn_12 (by decide +kernel)

theorem drawn_14 : Nat.Prime 814313794329416237 := prime_leaf 814313794329416237 339015466441 522550451496486045 drawn_13 (by decide +kernel)

theorem drawn_15 : Nat.Prime 14657648297929492267 := prime_leaf 14657648297929492267 814313794329416237 262144 drawn_14 (by decide +kernel)

theorem accepts_2_1 (strict : Bool) : Accepts 2 strict 5995420523497826103#64 :=
  accepts_of 2 (by decide) 5995420523497826103#64 [0xa8b2472b#32, 0xcb6a6d77#32] (by decide +kernel) (by decide +kernel) drawn_15 strict

theorem drawn_16 : Nat.Prime 4561 := by norm_num

theorem drawn_17 : Nat.Prime 4451537 := prime_leaf 4451537 4561 249045 drawn_16 (by decide +kernel)

theorem drawn_18 : Nat.Prime 7478083587857 := prime_leaf 7478083587857 4451537 6954419693011 drawn_17 (by decide +kernel)

theorem drawn_19 : Nat.Prime 173005948295151185079317 := prime_leaf 173005948295151185079317 7478083587857 41919933504474996812693 drawn_18 (by decide +kernel)

theorem drawn_20 : Nat.Prime 159165472431539090272971641 := prime_leaf 159165472431539090272971641 173005948295151185079317 21502728326570362300153218 drawn_19 (by decide +kernel)

theorem drawn_21 : Nat.Prime 73534448263371059706112898143 := prime_leaf 73534448263371059706112898143 159165472431539090272971641 56680574028173145917852771341 drawn_20 (by decide +kernel)

theorem accepts_3_0 (strict : Bool) : Accepts 3 strict 5771685014489427004#64 :=
  accepts_of 3 (by decide) 5771685014489427004#64 [0xc30df45f#32, 0xfbc61ab8#32, 0xed9a451b#32] (by decide +kernel) (by decide +kernel) drawn_21 strict

theorem drawn_22 : Nat.Prime 3853 := by norm_num

theorem drawn_23 : Nat.Prime 639599 := prime_leaf 639599 3853 161939 drawn_22 (by decide +kernel)

theorem drawn_24 : Nat.Prime 62464517539 := prime_leaf 62464517539 639599 8572066903 drawn_23 (by decide +kernel)

theorem drawn_25 : Nat.Prime 9369677630851 := prime_leaf 9369677630851 62464517539 2786282188726 drawn_24 (by decide +kernel)

theorem drawn_26 : Nat.Prime 67798987336837837 := prime_leaf 67798987336837837 9369677630851 30801999223312851 drawn_25 (by decide +kernel)

theorem drawn_27 : Nat.Prime 374552522386917809641673 := prime_leaf 374552522386917809641673 67798987336837837 363408604952405028945496 drawn_26 (by decide +kernel)

theorem drawn_28 : Nat.Prime 60284977583219195297446552697 := prime_leaf 60284977583219195297446552697 374552522386917809641673 16199638869660792873264056370 drawn_27 (by decide +kernel)

theorem accepts_3_1 (strict : Bool) : Accepts 3 strict 1456333679260813721#64 :=
  accepts_of 3 (by decide) 1456333679260813721#64 [0x0218e479#32, 0x32c46624#32, 0xc2ca908f#32] (by decide +kernel) (by decide +kernel) drawn_28 strict

theorem drawn_29 : Nat.Prime 59183 := by norm_num

theorem drawn_30 : Nat.Prime 20714051 := prime_leaf 20714051 59183 8413000 drawn_29 (by decide +kernel)

theorem drawn_31 : Nat.Prime 13919842273 := prime_leaf 13919842273 20714051 8488706535 drawn_30 (by decide +kernel)

theorem drawn_32 : Nat.Prime 55679369093 := prime_leaf 55679369093 13919842273 16 drawn_31 (by decide +kernel)

theorem drawn_33 : Nat.Prime 2077835123418377353 := prime_leaf 2077835123418377353 55679369093 148923452622777646 drawn_32 (by decide +kernel)

theorem drawn_34 : Nat.Prime 217723875572271252556753 := prime_leaf 217723875572271252556753 2077835123418377353 58591385069733735605914 drawn_33 (by decide +kernel)

theorem drawn_35 : Nat.Prime 1306343253433627515340519 := prime_leaf 1306343253433627515340519 217723875572271252556753 64 drawn_34 (by decide +kernel)

theorem drawn_36 : Nat.Prime 62733215716389660541682403419 := prime_leaf 62733215716389660541682403419 1306343253433627515340519 32971796926621299597940153044 drawn_35 (by decide +kernel)

theorem accepts_3_2 (strict : Bool) : Accepts 3 strict 7103171188571799242#64 :=
  accepts_of 3 (by decide) 7103171188571799242#64 [0x0b07485b#32, 0x55e81cff#32, 0xcab3b326#32] (by decide +kernel) (by decide +kernel) drawn_36 strict

theorem drawn_37 : Nat.Prime 4111 := by norm_num

theorem drawn_38 : Nat.Prime 10154171 := prime_leaf 10154171 4111 299118 drawn_37 (by decide +kernel)

theorem drawn_39 : Nat.Prime 731100313 := prime_leaf 731100313 10154171 112925786 drawn_38 (by decide +kernel)

theorem drawn_40 : Nat.Prime 331761624434393 := prime_leaf 331761624434393 731100313 38182951829635 drawn_39 (by decide +kernel)

theorem drawn_41 : Nat.Prime 199056974660635801 := prime_leaf 199056974660635801 331761624434393 84825550120592266 drawn_40 (by decide +kernel)

theorem drawn_42 : Nat.Prime 1180805973686891571533 := prime_leaf 1180805973686891571533 199056974660635801 870538774163418299209 drawn_41 (by decide +kernel)

theorem drawn_43 : Nat.Prime 1327225914424066126403093 := prime_leaf 1327225914424066126403093 1180805973686891571533 323259402679609531793008 drawn_42 (by decide +kernel)

theorem drawn_44 : Nat.Prime 62984832994908482094585181409 := prime_leaf 62984832994908482094585181409 1327225914424066126403093 17880912627301056482494871570 drawn_43 (by decide +kernel)

theorem accepts_3_3 (strict : Bool) : Accepts 3 strict 290426647643115163#64 :=
  accepts_of 3 (by decide) 290426647643115163#64 [0x56d574e1#32, 0x55f87c6d#32, 0xcb83d52e#32] (by decide +kernel) (by decide +kernel) drawn_44 strict

theorem drawn_45 : Nat.Prime 4597 := by norm_num

theorem drawn_46 : Nat.Prime 14232313 := prime_leaf 14232313 4597 10004636 drawn_45 (by decide +kernel)

theorem drawn_47 : Nat.Prime 142323131 := prime_leaf 142323131 14232313 1024 drawn_46 (by decide +kernel)

theorem drawn_48 : Nat.Prime 13458502236753001 := prime_leaf 13458502236753001 142323131 8661827821257863 drawn_47 (by decide +kernel)

theorem drawn_49 : Nat.Prime 29151115844807000167 := prime_leaf 29151115844807000167 13458502236753001 22201228599269011543 drawn_48 (by decide +kernel)

theorem drawn_50 : Nat.Prime 349335545046755925657262537 := prime_leaf 349335545046755925657262537 29151115844807000167 164597716794573028041000391 drawn_49 (by decide +kernel)

theorem drawn_51 : Nat.Prime 1143724574483078900601877546139 := prime_leaf 1143724574483078900601877546139 349335545046755925657262537 165700863619043938053814081976 drawn_50 (by decide +kernel)

theorem drawn_52 : Nat.Prime 118947355746240205662595264798457 := prime_leaf 118947355746240205662595264798457 1143724574483078900601877546139 20282409603651670423947251286016 drawn_51 (by decide +kernel)

theorem drawn_53 : Nat.Prime 305789624257722828236988581553343658687 := prime_leaf 305789624257722828236988581553343658687 118947355746240205662595264798457 145797980117025135220566814398441386970 drawn_52 (by decide +kernel)

theorem accepts_4_0 (strict : Bool) : Accepts 4 strict 8820750000637318024#64 :=
  accepts_of 4 (by decide) 8820750000637318024#64 [0xb63d7abf#32, 0xf4c7557c#32, 0xc94756f5#32, 0xe60cf07c#32] (by decide +kernel) (by decide +kernel) drawn_53 strict

theorem drawn_54 : Nat.Prime 80341 := by norm_num

theorem drawn_55 : Nat.Prime 404918641 := prime_leaf 404918641 80341 208514448 drawn_54 (by decide +kernel)

theorem drawn_56 : Nat.Prime 424814723344177 := prime_leaf 424814723344177 404918641 61174644066531 drawn_55 (by decide +kernel)

theorem drawn_57 : Nat.Prime 32562048544331167051 := prime_leaf 32562048544331167051 424814723344177 28519661551257942730 drawn_56 (by decide +kernel)

theorem drawn_58 : Nat.Prime 505554718749848734543116289 := prime_leaf 505554718749848734543116289 32562048544331167051 437782344111692647001944260 drawn_57 (by decide +kernel)

theorem drawn_59 : Nat.Prime 8628374173673730830967670826876039 := prime_leaf 8628374173673730830967670826876039 505554718749848734543116289 7040272723878850352597260903192431 drawn_58 (by decide +kernel)

theorem drawn_60 : Nat.Prime 283700942830392269722217016787684162321 := prime_leaf 283700942830392269722217016787684162321 8628374173673730830967670826876039 113492487830071831426956869495665264821 drawn_59 (by decide +kernel)

theorem accepts_4_1 (strict : Bool) : Accepts 4 strict 6578031443915469193#64 :=
  accepts_of 4 (by decide) 6578031443915469193#64 [0x9a5dfb11#32, 0x0decaa8d#32, 0x2bfb5cd6#32, 0xd56ed069#32] (by decide +kernel) (by decide +kernel) drawn_60 strict

theorem drawn_61 : Nat.Prime 67933 := by norm_num

theorem drawn_62 : Nat.Prime 407599 := prime_leaf 407599 67933 64 drawn_61 (by decide +kernel)

theorem drawn_63 : Nat.Prime 344013557 := prime_leaf 344013557 407599 243477768 drawn_62 (by decide +kernel)

theorem drawn_64 : Nat.Prime 90819579049 := prime_leaf 90819579049 344013557 41049556278 drawn_63 (by decide +kernel)

theorem drawn_65 : Nat.Prime 128055606459091 := prime_leaf 128055606459091 90819579049 20550946804961 drawn_64 (by decide +kernel)

theorem drawn_66 : Nat.Prime 21351991820988833341 := prime_leaf 21351991820988833341 128055606459091 11450428553426173355 drawn_65 (by decide +kernel)

theorem drawn_67 : Nat.Prime 24584939606588394574827493 := prime_leaf 24584939606588394574827493 21351991820988833341 5215152658892005332735541 drawn_66 (by decide +kernel)

theorem drawn_68 : Nat.Prime 98339758426353578299309973 := prime_leaf 98339758426353578299309973 24584939606588394574827493 16 drawn_67 (by decide +kernel)

theorem drawn_69 : Nat.Prime 5608169503455855598163668591090339 := prime_leaf 5608169503455855598163668591090339 98339758426353578299309973 680270628405404014019783173007381 drawn_68 (by decide +kernel)

theorem drawn_70 : Nat.Prime 323972735875637866194718807170106703353 := prime_leaf 323972735875637866194718807170106703353 5608169503455855598163668591090339 155762486902866801276303647370475781185 drawn_69 (by decide +kernel)

theorem accepts_4_2 (strict : Bool) : Accepts 4 strict 16143310900075484846#64 :=
  accepts_of 4 (by decide) 16143310900075484846#64 [0x5c3ebdf9#32, 0xf202acfc#32, 0x095a5ff8#32, 0xf3bae11b#32] (by decide +kernel) (by decide +kernel) drawn_70 strict

theorem drawn_71 : Nat.Prime 60901 := by norm_num

theorem drawn_72 : Nat.Prime 2255164031 := prime_leaf 2255164031 60901 292482298 drawn_71 (by decide +kernel)

theorem drawn_73 : Nat.Prime 4510328063 := prime_leaf 4510328063 2255164031 4 drawn_72 (by decide +kernel)

theorem drawn_74 : Nat.Prime 188172212824810523 := prime_leaf 188172212824810523 4510328063 185406014188625678 drawn_73 (by decide +kernel)

theorem drawn_75 : Nat.Prime 376344425649621047 := prime_leaf 376344425649621047 188172212824810523 4 drawn_74 (by decide +kernel)

theorem drawn_76 : Nat.Prime 479703658710032971348081 := prime_leaf 479703658710032971348081 376344425649621047 389789289146562365192767 drawn_75 (by decide +kernel)

theorem drawn_77 : Nat.Prime 259614660686552424027638741039 := prime_leaf 259614660686552424027638741039 479703658710032971348081 200993827884767343145108587642 drawn_76 (by decide +kernel)

theorem drawn_78 : Nat.Prime 841832729494071367410198045022846337 := prime_leaf 841832729494071367410198045022846337 259614660686552424027638741039 647594932275216681789375704272151714 drawn_77 (by decide +kernel)

theorem drawn_79 : Nat.Prime 314845440830782691411414068838544530039 := prime_leaf 314845440830782691411414068838544530039 841832729494071367410198045022846337 171264331913876179418542630410943745443 drawn_78 (by decide +kernel)

theorem accepts_4_3 (strict : Bool) : Accepts 4 strict 16663107778842437875#64 :=
  accepts_of 4 (by decide) 16663107778842437875#64 [0xd76d5a77#32, 0xee8db889#32, 0x55eedb71#32, 0xecdd06b7#32] (by decide +kernel) (by decide +kernel) drawn_79 strict

theorem drawn_80 : Nat.Prime 53327 := by norm_num

theorem drawn_81 : Nat.Prime 1958914019 := prime_leaf 1958914019 53327 1369180022 drawn_80 (by decide +kernel)

theorem drawn_82 : Nat.Prime 163690773255679 := prime_leaf 163690773255679 1958914019 105776268975290 drawn_81 (by decide +kernel)

theorem drawn_83 : Nat.Prime 85166213773983931102078049 := prime_leaf 85166213773983931102078049 163690773255679 31623693228204969402375610 drawn_82 (by decide +kernel)

theorem drawn_84 : Nat.Prime 9971374638679060117775863063963631267 := prime_leaf 9971374638679060117775863063963631267 85166213773983931102078049 1362741168308558236143121225079468852 drawn_83 (by decide +kernel)

theorem drawn_85 : Nat.Prime 1418265313586313912073550946816174791365634116937 := prime_leaf 1418265313586313912073550946816174791365634116937 9971374638679060117775863063963631267 1065936088711216702107372390217193321146986327140 drawn_84 (by decide +kernel)

theorem accepts_5_0 (strict : Bool) : Accepts 5 strict 18438329166753399410#64 :=
  accepts_of 5 (by decide) 18438329166753399410#64 [0x726d4d49#32, 0x1008586c#32, 0xd0ca906c#32, 0x3843845c#32, 0xf86d3758#32] (by decide +kernel) (by decide +kernel) drawn_85 strict

theorem drawn_86 : Nat.Prime 727 := by norm_num

theorem drawn_87 : Nat.Prime 334421 := prime_leaf 334421 727 208303 drawn_86 (by decide +kernel)

theorem drawn_88 : Nat.Prime 152495977 := prime_leaf 152495977 334421 1857194 drawn_87 (by decide +kernel)

theorem drawn_89 : Nat.Prime 105222224131 := prime_leaf 105222224131 152495977 65067938908 drawn_88 (by decide +kernel)

theorem drawn_90 : Nat.Prime 145838002645567 := prime_leaf 145838002645567 105222224131 111065465732341 drawn_89 (by decide +kernel)

theorem drawn_91 : Nat.Prime 3833189456562564666307579991 := prime_leaf 3833189456562564666307579991 145838002645567 2750280149284432087830534517 drawn_90 (by decide +kernel)

theorem drawn_92 : Nat.Prime 1129894604894206313252817793114828399801 := prime_leaf 1129894604894206313252817793114828399801 3833189456562564666307579991 693853360184207751034982045647405927221 drawn_91 (by decide +kernel)

theorem drawn_93 : Nat.Prime 1197932110183805651981974192275836697528080256199 := prime_leaf 1197932110183805651981974192275836697528080256199 1129894604894206313252817793114828399801 179910958554099748998107470833544915636542988015 drawn_92 (by decide +kernel)

theorem accepts_5_1 (strict : Bool) : Accepts 5 strict 7226207337477934565#64 :=
  accepts_of 5 (by decide) 7226207337477934565#64 [0x2017ccc7#32, 0xe42c956e#32, 0x6262a17e#32, 0x79661756#32, 0xd1d52236#32] (by decide +kernel) (by decide +kernel) drawn_93 strict

theorem drawn_94 : Nat.Prime 20011 := by norm_num

theorem drawn_95 : Nat.Prime 120067 := prime_leaf 120067 20011 64 drawn_94 (by decide +kernel)

theorem drawn_96 : Nat.Prime 4124301451 := prime_leaf 4124301451 120067 1266084858 drawn_95 (by decide +kernel)

theorem drawn_97 : Nat.Prime 585650806043 := prime_leaf 585650806043 4124301451 68363605167 drawn_96 (by decide +kernel)

theorem drawn_98 : Nat.Prime 804298046931101427091 := prime_leaf 804298046931101427091 585650806043 349878042231332850891 drawn_97 (by decide +kernel)

theorem drawn_99 : Nat.Prime 4195487455664207589013319255247071 := prime_leaf 4195487455664207589013319255247071 804298046931101427091 400516729234358276096001282273056 drawn_98 (by decide +kernel)

theorem drawn_100 : Nat.Prime 7111401583200299833868644297474848309853 := prime_leaf 7111401583200299833868644297474848309853 4195487455664207589013319255247071 2458547815980599276162175650459001659610 drawn_99 (by decide +kernel)

theorem drawn_101 : Nat.Prime 4836219182851422549434679615668997186441255472750540068517 := prime_leaf 4836219182851422549434679615668997186441255472750540068517 7111401583200299833868644297474848309853 4059746477821871169563566049450649046629693386939592054984 drawn_100 (by decide +kernel)

theorem accepts_6_0 (strict : Bool) : Accepts 6 strict 3848415013255124594#64 :=
  accepts_of 6 (by decide) 3848415013255124594#64 [0x323f96a5#32, 0xbadd3ba3#32, 0x4b9f69dd#32, 0x738e7e20#32, 0x527d7186#32, 0xc53c7bf6#32] (by decide +kernel) (by decide +kernel) drawn_101 strict

theorem drawn_102 : Nat.Prime 87251 := by norm_num

theorem drawn_103 : Nat.Prime 9423109 := prime_leaf 9423109 87251 9391741 drawn_102 (by decide +kernel)

theorem drawn_104 : Nat.Prime 6256944377 := prime_leaf 6256944377 9423109 4448724700 drawn_103 (by decide +kernel)

theorem drawn_105 : Nat.Prime 37541666263 := prime_leaf 37541666263 6256944377 64 drawn_104 (by decide +kernel)

theorem drawn_106 : Nat.Prime 81338374792076009 := prime_leaf 81338374792076009 37541666263 46871547777940944 drawn_105 (by decide +kernel)

theorem drawn_107 : Nat.Prime 9365333756734566345010426747 := prime_leaf 9365333756734566345010426747 81338374792076009 714369439715041364351807286 drawn_106 (by decide +kernel)

theorem drawn_108 : Nat.Prime 276142743003323266193211147606962526655844371 := prime_leaf 276142743003323266193211147606962526655844371 9365333756734566345010426747 201087959653941683259592870767998691119195770 drawn_107 (by decide +kernel)

theorem drawn_109 : Nat.Prime 4788541104700515471775083014298766231820835354483963392573 := prime_leaf 4788541104700515471775083014298766231820835354483963392573 276142743003323266193211147606962526655844371 749005264750876467407550788688241397666714002435660713184 drawn_108 (by decide +kernel)

theorem accepts_6_1 (strict : Bool) : Accepts 6 strict 16383406126309448845#64 :=
  accepts_of 6 (by decide) 16383406126309448845#64 [0x8adaf23d#32, 0x3904a365#32, 0xb148408b#32, 0x5f83d4ac#32, 0x6ea30d91#32, 0xc34ab3ad#32] (by decide +kernel) (by decide +kernel) drawn_109 strict

theorem drawn_110 : Nat.Prime 2777 := by norm_num

theorem drawn_111 : Nat.Prime 1038599 := prime_leaf 1038599 2777 867138 drawn_110 (by decide +kernel)

theorem drawn_112 : Nat.Prime 74779129 := prime_leaf 74779129 1038599 55956111 drawn_111 (by decide +kernel)

theorem drawn_113 : Nat.Prime 336057405727 := prime_leaf 336057405727 74779129 179326699724 drawn_112 (by decide +kernel)

theorem drawn_114 : Nat.Prime 43687462744511 := prime_leaf 43687462744511 336057405727 32154374891920 drawn_113 (by decide +kernel)

theorem drawn_115 : Nat.Prime 87374925489023 := prime_leaf 87374925489023 43687462744511 4 drawn_114 (by decide +kernel)

theorem drawn_116 : Nat.Prime 10223969478024915404399 := prime_leaf 10223969478024915404399 87374925489023 4054589915453443156263 drawn_115 (by decide +kernel)

theorem drawn_117 : Nat.Prime 119435511732972995561633530889 := prime_leaf 119435511732972995561633530889 10223969478024915404399 37816371893178309710927807143 drawn_116 (by decide +kernel)

theorem drawn_118 : Nat.Prime 238871023465945991123267061779 := prime_leaf 238871023465945991123267061779 119435511732972995561633530889 4 drawn_117 (by decide +kernel)

theorem drawn_119 : Nat.Prime 459033668374039092221759847279468721 := prime_leaf 459033668374039092221759847279468721 238871023465945991123267061779 408038416440971085319873478465326128 drawn_118 (by decide +kernel)

theorem drawn_120 : Nat.Prime 4600514642638973100416856451862239623455995297 := prime_leaf 4600514642638973100416856451862239623455995297 459033668374039092221759847279468721 1289782550466321058793936564323595262678738441 drawn_119 (by decide +kernel)

theorem drawn_121 : Nat.Prime 22197361711312719713496908657772331807221445178177061841918961155741 := prime_leaf 22197361711312719713496908657772331807221445178177061841918961155741 4600514642638973100416856451862239623455995297 11160093257575516615959398715482566501184394874983235343938199741295 drawn_120 (by decide +kernel)

theorem accepts_7_0 (strict : Bool) : Accepts 7 strict 1779156282697749088#64 :=
  accepts_of 7 (by decide) 1779156282697749088#64 [0x384c7e9d#32, 0xcf32d674#32, 0x2fe7f99e#32, 0xe9d0102b#32, 0x441c33d1#32, 0x13cd3921#32, 0xd2c6cc1b#32] (by decide +kernel) (by decide +kernel) drawn_121 strict

theorem drawn_122 : Nat.Prime 40213 := by norm_num

theorem drawn_123 : Nat.Prime 1206391 := prime_leaf 1206391 40213 53834 drawn_122 (by decide +kernel)

theorem drawn_124 : Nat.Prime 781437357469 := prime_leaf 781437357469 1206391 288522224539 drawn_123 (by decide +kernel)

theorem drawn_125 : Nat.Prime 12892153523523563 := prime_leaf 12892153523523563 781437357469 758654005292923 drawn_124 (by decide +kernel)

theorem drawn_126 : Nat.Prime 1922268529525237803410425473187 := prime_leaf 1922268529525237803410425473187 12892153523523563 1855022760210446207338556578611 drawn_125 (by decide +kernel)

theorem drawn_127 : Nat.Prime 193301669359093267684390476365590501932873645946613 := prime_leaf 193301669359093267684390476365590501932873645946613 1922268529525237803410425473187 10263547174940649853214887183436488777027897042034 drawn_126 (by decide +kernel)

theorem drawn_128 : Nat.Prime 23165888491264510614323142963941787282251285294433675501828590166361 := prime_leaf 23165888491264510614323142963941787282251285294433675501828590166361 193301669359093267684390476365590501932873645946613 9508709078656481005598488054492101651482764542792284838238433306646 drawn_127 (by decide +kernel)

theorem accepts_7_1 (strict : Bool) : Accepts 7 strict 2290393645018748489#64 :=
  accepts_of 7 (by decide) 2290393645018748489#64 [0x8b226159#32, 0x76c1b1cd#32, 0xa4b8e236#32, 0x379d000a#32, 0xa21fbf34#32, 0xf686414d#32, 0xdbf927cc#32] (by decide +kernel) (by decide +kernel) drawn_128 strict

theorem drawn_129 : Nat.Prime 23473 := by norm_num

theorem drawn_130 : Nat.Prime 2112571 := prime_leaf 2112571 23473 583039 drawn_129 (by decide +kernel)

theorem drawn_131 : Nat.Prime 480901437299 := prime_leaf 480901437299 2112571 59081017503 drawn_130 (by decide +kernel)

theorem drawn_132 : Nat.Prime 130752291787225111 := prime_leaf 130752291787225111 480901437299 126809526560437469 drawn_131 (by decide +kernel)

theorem drawn_133 : Nat.Prime 111470654727858924394796597132063 := prime_leaf 111470654727858924394796597132063 130752291787225111 16914371208187712974305530518510 drawn_132 (by decide +kernel)

theorem drawn_134 : Nat.Prime 7651568681829692288307628020339068447 := prime_leaf 7651568681829692288307628020339068447 111470654727858924394796597132063 958105799135037229898324945213789249 drawn_133 (by decide +kernel)

theorem drawn_135 : Nat.Prime 21966666700303097155644782596013941937560508153443013478623674186141 := prime_leaf 21966666700303097155644782596013941937560508153443013478623674186141 7651568681829692288307628020339068447 10618898419347094309251164246334545494922156184598625553252502600951 drawn_134 (by decide +kernel)

theorem accepts_7_2 (strict : Bool) : Accepts 7 strict 13879711277905527906#64 :=
  accepts_of 7 (by decide) 13879711277905527906#64 [0x93d5399d#32, 0x953af39e#32, 0x996e04a9#32, 0xa23cdb97#32, 0x4ac2a634#32, 0x7ac38769#32, 0xd096023f#32] (by decide +kernel) (by decide +kernel) drawn_135 strict

theorem drawn_136 : Nat.Prime 5689 := by norm_num

theorem drawn_137 : Nat.Prime 1024021 := prime_leaf 1024021 5689 502330 drawn_136 (by decide +kernel)

theorem drawn_138 : Nat.Prime 3020861951 := prime_leaf 3020861951 1024021 1935857340 drawn_137 (by decide +kernel)

theorem drawn_139 : Nat.Prime 36250343413 := prime_leaf 36250343413 3020861951 4096 drawn_138 (by decide +kernel)

theorem drawn_140 : Nat.Prime 1225914911048389087 := prime_leaf 1225914911048389087 36250343413 940469141717663545 drawn_139 (by decide +kernel)

theorem drawn_141 : Nat.Prime 1473164785798094488400683 := prime_leaf 1473164785798094488400683 1225914911048389087 180787790299526256596827 drawn_140 (by decide +kernel)

theorem drawn_142 : Nat.Prime 9489126563970085774312392885959098531 := prime_leaf 9489126563970085774312392885959098531 1473164785798094488400683 7666283129962729114712689106352714931 drawn_141 (by decide +kernel)

theorem drawn_143 : Nat.Prime 48794748426221203370480225368878221350375197059431 := prime_leaf 48794748426221203370480225368878221350375197059431 9489126563970085774312392885959098531 38778104372490869009383639217182713533610930331717 drawn_142 (by decide +kernel)

theorem drawn_144 : Nat.Prime 25369763671810487785977878376623151818538287751113516493724505263553 := prime_leaf 25369763671810487785977878376623151818538287751113516493724505263553 48794748426221203370480225368878221350375197059431 9566464797468121108582961121054971711885505336729797769077190771 drawn_143 (by decide +kernel)

theorem accepts_7_3 (strict : Bool) : Accepts 7 strict 7086809568740060419#64 :=
  accepts_of 7 (by decide) 7086809568740060419#64 [0xdb5ecdc1#32, 0x442b44d0#32, 0x27db4e69#32, 0xacac85a2#32, 0xffc9307e#32, 0x4a529b50#32, 0xf0e67ab1#32] (by decide +kernel) (by decide +kernel) drawn_144 strict

theorem drawn_145 : Nat.Prime 61483 := by norm_num

theorem drawn_146 : Nat.Prime 2828219 := prime_leaf 2828219 61483 2588242 drawn_145 (by decide +kernel)

theorem drawn_147 : Nat.Prime 5656439 := prime_leaf 5656439 2828219 4 drawn_146 (by decide +kernel)

theorem drawn_148 : Nat.Prime 130731618169 := prime_leaf 130731618169 5656439 95399267188 drawn_147 (by decide +kernel)

theorem drawn_149 : Nat.Prime 169951103619701 := prime_leaf 169951103619701 130731618169 145497601339369 drawn_148 (by decide +kernel)

theorem drawn_150 : Nat.Prime 2057767962627339709 := prime_leaf 2057767962627339709 169951103619701 817147456494836059 drawn_149 (by decide +kernel)

theorem drawn_151 : Nat.Prime 2047459660444812481076032279 := prime_leaf 2047459660444812481076032279 2057767962627339709 901643643154532322839624488 drawn_150 (by decide +kernel)

theorem drawn_152 : Nat.Prime 4938472700992887704355389856949 := prime_leaf 4938472700992887704355389856949 2047459660444812481076032279 4237338637454220346959234238150 drawn_151 (by decide +kernel)

theorem drawn_153 : Nat.Prime 688664113701037035207312613049072500274453329 := prime_leaf 688664113701037035207312613049072500274453329 4938472700992887704355389856949 139727690557565451509473802791951103495748876 drawn_152 (by decide +kernel)

theorem drawn_154 : Nat.Prime 1461345249273600588709917364890131845582389964139 := prime_leaf 1461345249273600588709917364890131845582389964139 688664113701037035207312613049072500274453329 927096333416701156260980731929666975057852142064 drawn_153 (by decide +kernel)

theorem drawn_155 : Nat.Prime 24583767645173206883083231559491992377471205608183621262105475175987 := prime_leaf 24583767645173206883083231559491992377471205608183621262105475175987 1461345249273600588709917364890131845582389964139 3799992910124716220071418384418709069872535489804892937362804049308 drawn_154 (by decide +kernel)

theorem accepts_7_4 (strict : Bool) : Accepts 7 strict 15604775889591615084#64 :=
  accepts_of 7 (by decide) 15604775889591615084#64 [0x4ebe5633#32, 0x9b333b36#32, 0xd4fe78c7#32, 0xaddb29d4#32, 0x892f2bef#32, 0x118a1189#32, 0xe96fd42a#32] (by decide +kernel) (by decide +kernel) drawn_155 strict

theorem drawn_156 : Nat.Prime 66569 := by norm_num

theorem drawn_157 : Nat.Prime 29290361 := prime_leaf 29290361 66569 28202988 drawn_156 (by decide +kernel)

theorem drawn_158 : Nat.Prime 58580723 := prime_leaf 58580723 29290361 4 drawn_157 (by decide +kernel)

theorem drawn_159 : Nat.Prime 1699848906919939 := prime_leaf 1699848906919939 58580723 292559519866134 drawn_158 (by decide +kernel)

theorem drawn_160 : Nat.Prime 22382252835591036398077163 := prime_leaf 22382252835591036398077163 1699848906919939 2626866288008666720786773 drawn_159 (by decide +kernel)

theorem drawn_161 : Nat.Prime 971210715041966251385364256897 := prime_leaf 971210715041966251385364256897 22382252835591036398077163 580612040599326714279965714171 drawn_160 (by decide +kernel)

theorem drawn_162 : Nat.Prime 130740641806174011865349875605311656591751519 := prime_leaf 130740641806174011865349875605311656591751519 971210715041966251385364256897 34799563991195909486903173567080246789993788 drawn_161 (by decide +kernel)

theorem drawn_163 : Nat.Prime 1568485543459892351123700691046377940445342000327557 := prime_leaf 1568485543459892351123700691046377940445342000327557 130740641806174011865349875605311656591751519 324061899591317062318484786472685674808018420747134 drawn_162 (by decide +kernel)

theorem drawn_164 : Nat.Prime 2303655819550760520710707823826854384145116047760939092740508621 := prime_leaf 2303655819550760520710707823826854384145116047760939092740508621 1568485543459892351123700691046377940445342000327557 1128775127898214134075324349448759459110945135863009132867148103 drawn_163 (by decide +kernel)

theorem drawn_165 : Nat.Prime 24603044152802122361190359558470804822669839390086829510468632072281 := prime_leaf 24603044152802122361190359558470804822669839390086829510468632072281 2303655819550760520710707823826854384145116047760939092740508621 2407841323312348213829144867333748979249918908154151721151782656727 drawn_164 (by decide +kernel)

theorem accepts_7_5 (strict : Bool) : Accepts 7 strict 2095946930422081013#64 :=
  accepts_of 7 (by decide) 2095946930422081013#64 [0x26a05059#32, 0x4d48c512#32, 0x9b98f74c#32, 0xa2f961e4#32, 0x128f681c#32, 0xe80775d0#32, 0xe99eaff6#32] (by decide +kernel) (by decide +kernel) drawn_165 strict

theorem drawn_166 : Nat.Prime 5839 := by norm_num

theorem drawn_167 : Nat.Prime 700681 := prime_leaf 700681 5839 345039 drawn_166 (by decide +kernel)

theorem drawn_168 : Nat.Prime 11210897 := prime_leaf 11210897 700681 65536 drawn_167 (by decide +kernel)

theorem drawn_169 : Nat.Prime 185181596647 := prime_leaf 185181596647 11210897 129789181664 drawn_168 (by decide +kernel)

theorem drawn_170 : Nat.Prime 23778818832223607171 := prime_leaf 23778818832223607171 185181596647 21702840886963567974 drawn_169 (by decide +kernel)

theorem drawn_171 : Nat.Prime 3503952018574692909388189033873 := prime_leaf 3503952018574692909388189033873 23778818832223607171 2722764516718905536045541648501 drawn_170 (by decide +kernel)

theorem drawn_172 : Nat.Prime 4265722497066828826551201031203853106045086735347617 := prime_leaf 4265722497066828826551201031203853106045086735347617 3503952018574692909388189033873 1031735439357848466719651482256702795427306916411767 drawn_171 (by decide +kernel)

theorem drawn_173 : Nat.Prime 20798814573412244780930874553040413427171764347421412817654633417607 := prime_leaf 20798814573412244780930874553040413427171764347421412817654633417607 4265722497066828826551201031203853106045086735347617 8696421586766001460095245713282667697377140760857585520271608237045 drawn_172 (by decide +kernel)

theorem accepts_7_6 (strict : Bool) : Accepts 7 strict 13315486909542670030#64 :=
  accepts_of 7 (by decide) 13315486909542670030#64 [0x7bc34b87#32, 0xfea1efd5#32, 0x5cf6a1e1#32, 0x0b9d66ee#32, 0xe97fe3eb#32, 0xcdff9847#32, 0xc57f1e15#32] (by decide +kernel) (by decide +kernel) drawn_173 strict

theorem drawn_174 : Nat.Prime 35311 := by norm_num

theorem drawn_175 : Nat.Prime 11017033 := prime_leaf 11017033 35311 8775315 drawn_174 (by decide +kernel)

theorem drawn_176 : Nat.Prime 2159338469 := prime_leaf 2159338469 11017033 175877047 drawn_175 (by decide +kernel)

theorem drawn_177 : Nat.Prime 3079057967009913191 := prime_leaf 3079057967009913191 2159338469 2368582032439747312 drawn_176 (by decide +kernel)

theorem drawn_178 : Nat.Prime 36948695604118958293 := prime_leaf 36948695604118958293 3079057967009913191 4096 drawn_177 (by decide +kernel)

theorem drawn_179 : Nat.Prime 369486956041189582931 := prime_leaf 369486956041189582931 36948695604118958293 1024 drawn_178 (by decide +kernel)

theorem drawn_180 : Nat.Prime 2216921736247137497587 := prime_leaf 2216921736247137497587 369486956041189582931 64 drawn_179 (by decide +kernel)

theorem drawn_181 : Nat.Prime 8070990063118813498074564591005187128287 := prime_leaf 8070990063118813498074564591005187128287 2216921736247137497587 1870340159180314926487211974333765334424 drawn_180 (by decide +kernel)

theorem drawn_182 : Nat.Prime 89675194608373091193657102259057929028519567338011117 := prime_leaf 89675194608373091193657102259057929028519567338011117 8070990063118813498074564591005187128287 80332074607382162034402644185642740617079615090010250 drawn_181 (by decide +kernel)

theorem drawn_183 : Nat.Prime 4483759730418654559682855112952896451425978366900555851 := prime_leaf 4483759730418654559682855112952896451425978366900555851 89675194608373091193657102259057929028519567338011117 1125899906842624 drawn_182 (by decide +kernel)

theorem drawn_184 : Nat.Prime 23542775192869940680705007444628584773004318799218800973655645223663 := prime_leaf 23542775192869940680705007444628584773004318799218800973655645223663 4483759730418654559682855112952896451425978366900555851 23037529558741435409874440045065992216855527609724904470024458740983 drawn_183 (by decide +kernel)

theorem accepts_7_7 (strict : Bool) : Accepts 7 strict 6858421040464398175#64 :=
  accepts_of 7 (by decide) 6858421040464398175#64 [0x09b5faef#32, 0x45994b5f#32, 0x6ef5586b#32, 0xf7343a9b#32, 0x28dcbef5#32, 0x897e7a71#32, 0xdf8d50f8#32] (by decide +kernel) (by decide +kernel) drawn_184 strict

theorem drawn_185 : Nat.Prime 32843 := by norm_num

theorem drawn_186 : Nat.Prime 197059 := prime_leaf 197059 32843 64 drawn_185 (by decide +kernel)

theorem drawn_187 : Nat.Prime 37503874763 := prime_leaf 37503874763 197059 26235348903 drawn_186 (by decide +kernel)

theorem drawn_188 : Nat.Prime 2727731819262517 := prime_leaf 2727731819262517 37503874763 1148885517930889 drawn_187 (by decide +kernel)

theorem drawn_189 : Nat.Prime 246603688368310893079279 := prime_leaf 246603688368310893079279 2727731819262517 99209004327278242858332 drawn_188 (by decide +kernel)

theorem drawn_190 : Nat.Prime 17180979886740818261436764549503729 := prime_leaf 17180979886740818261436764549503729 246603688368310893079279 4686934478539061541948187202554860 drawn_189 (by decide +kernel)

theorem drawn_191 : Nat.Prime 33193653141183260881095829109641204429 := prime_leaf 33193653141183260881095829109641204429 17180979886740818261436764549503729 20666572437567567040978127415996576198 drawn_190 (by decide +kernel)

theorem drawn_192 : Nat.Prime 449522212085169720915330089841255163007908295942567 := prime_leaf 449522212085169720915330089841255163007908295942567 33193653141183260881095829109641204429 286537566981293938930882165463899811434463224170283 drawn_191 (by decide +kernel)

theorem drawn_193 : Nat.Prime 96834123794204101699724640899466008958340640230181332817694805732456063150723 := prime_leaf 96834123794204101699724640899466008958340640230181332817694805732456063150723 449522212085169720915330089841255163007908295942567 35762690912114588656741547226100555422800288593530605299532878470844568925685 drawn_192 (by decide +kernel)

theorem accepts_8_0 (strict : Bool) : Accepts 8 strict 17537940940576424248#64 :=
  accepts_of 8 (by decide) 17537940940576424248#64 [0xf55daa83#32, 0xb3d185db#32, 0xdc768f02#32, 0x31954af5#32, 0x8785d030#32, 0x262eacc8#32, 0xbd27eb29#32, 0xd6162bfb#32] (by decide +kernel) (by decide +kernel) drawn_193 strict

theorem drawn_194 : Nat.Prime 61297 := by norm_num

theorem drawn_195 : Nat.Prime 44501623 := prime_leaf 44501623 61297 38303070 drawn_194 (by decide +kernel)

theorem drawn_196 : Nat.Prime 108323180609221 := prime_leaf 108323180609221 44501623 9059804529243 drawn_195 (by decide +kernel)

theorem drawn_197 : Nat.Prime 4816018062749033859679 := prime_leaf 4816018062749033859679 108323180609221 2413869546352700704383 drawn_196 (by decide +kernel)

theorem drawn_198 : Nat.Prime 11142400055317918728514117075452463447 := prime_leaf 11142400055317918728514117075452463447 4816018062749033859679 2391234127697520447014596768654656162 drawn_197 (by decide +kernel)

theorem drawn_199 : Nat.Prime 3387289616816647293468291590937548887889 := prime_leaf 3387289616816647293468291590937548887889 11142400055317918728514117075452463447 1039572957541697973464481611257280383191 drawn_198 (by decide +kernel)

theorem drawn_200 : Nat.Prime 2039148349323621670667911537744404430509179 := prime_leaf 2039148349323621670667911537744404430509179 3387289616816647293468291590937548887889 1764099917656521373294207142947995661490763 drawn_199 (by decide +kernel)

theorem drawn_201 : Nat.Prime 224473706815886948333646297614783750455747478041262959 := prime_leaf 224473706815886948333646297614783750455747478041262959 2039148349323621670667911537744404430509179 50268824679413538036215579433520533349286281134447247 drawn_200 (by decide +kernel)

theorem drawn_202 : Nat.Prime 15758366579025667043291863121388461396337042142050293612197759517 := prime_leaf 15758366579025667043291863121388461396337042142050293612197759517 224473706815886948333646297614783750455747478041262959 1046432109427245294969545757448184792134728807546265418835375082 drawn_201 (by decide +kernel)

theorem drawn_203 : Nat.Prime 1567317667658775658113451651487541556361090718837638784805900043936365369369 := prime_leaf 1567317667658775658113451651487541556361090718837638784805900043936365369369 15758366579025667043291863121388461396337042142050293612197759517 716803255047720240894673334174544499769149223082861358781043180077970095082 drawn_202 (by decide +kernel)

theorem drawn_204 : Nat.Prime 100308330730161642119260905695202659607109806005608882227577602811927383639617 := prime_leaf 100308330730161642119260905695202659607109806005608882227577602811927383639617 1567317667658775658113451651487541556361090718837638784805900043936365369369 18446744073709551616 drawn_203 (by decide +kernel)

theorem accepts_8_1 (strict : Bool) : Accepts 8 strict 5526225288330116137#64 :=
  accepts_of 8 (by decide) 5526225288330116137#64 [0xb0560641#32, 0x05bc615c#32, 0x4982a72a#32, 0x93c6608f#32, 0x26d1e6aa#32, 0x48e48abb#32, 0x18544f13#32, 0xddc480d5#32] (by decide +kernel) (by decide +kernel) drawn_204 strict

theorem drawn_205 : Nat.Prime 1543 := by norm_num

theorem drawn_206 : Nat.Prime 481417 := prime_leaf 481417 1543 144699 drawn_205 (by decide +kernel)

theorem drawn_207 : Nat.Prime 16368179 := prime_leaf 16368179 481417 9649413 drawn_206 (by decide +kernel)

theorem drawn_208 : Nat.Prime 32736359 := prime_leaf 32736359 16368179 4 drawn_207 (by decide +kernel)

theorem drawn_209 : Nat.Prime 39283630801 := prime_leaf 39283630801 32736359 20125180771 drawn_208 (by decide +kernel)

theorem drawn_210 : Nat.Prime 7778158898599 := prime_leaf 7778158898599 39283630801 4318587653757 drawn_209 (by decide +kernel)

theorem drawn_211 : Nat.Prime 500524525124845651 := prime_leaf 500524525124845651 7778158898599 406952314174368459 drawn_210 (by decide +kernel)

theorem drawn_212 : Nat.Prime 125507390582483512971226231 := prime_leaf 125507390582483512971226231 500524525124845651 102974171246339409426420449 drawn_211 (by decide +kernel)

theorem drawn_213 : Nat.Prime 288164968777382145781935426377 := prime_leaf 288164968777382145781935426377 125507390582483512971226231 137836314168241259823236559505 drawn_212 (by decide +kernel)

theorem drawn_214 : Nat.Prime 27701155355769186866989444388674781007640343720083870517 := prime_leaf 27701155355769186866989444388674781007640343720083870517 288164968777382145781935426377 9118063754150466079288536327820895510497149706379671501 drawn_213 (by decide +kernel)

theorem drawn_215 : Nat.Prime 107378862885418668650170139467657175044332121273816803107537756130168965004791 := prime_leaf 107378862885418668650170139467657175044332121273816803107537756130168965004791 27701155355769186866989444388674781007640343720083870517 73568334374309760689668652023516654119274456353180313222959574381851773040712 drawn_214 (by decide +kernel)

theorem accepts_8_2 (strict : Bool) : Accepts 8 strict 15524243421338459754#64 :=
  accepts_of 8 (by decide) 15524243421338459754#64 [0xddc17df7#32, 0x86dc21bb#32, 0xf7917a2a#32, 0x65ea0e22#32, 0x317731ff#32, 0xe4608070#32, 0xaf253d48#32, 0xed66485a#32] (by decide +kernel) (by decide +kernel) drawn_215 strict

theorem drawn_216 : Nat.Prime 91841 := by norm_num

theorem drawn_217 : Nat.Prime 2755231 := prime_leaf 2755231 91841 1956965 drawn_216 (by decide +kernel)

theorem drawn_218 : Nat.Prime 60615083 := prime_leaf 60615083 2755231 4194304 drawn_217 (by decide +kernel)

theorem drawn_219 : Nat.Prime 20851588553 := prime_leaf 20851588553 60615083 20340137208 drawn_218 (by decide +kernel)

theorem drawn_220 : Nat.Prime 596563948501331 := prime_leaf 596563948501331 20851588553 279432174955073 drawn_219 (by decide +kernel)

theorem drawn_221 : Nat.Prime 10034205613792387421 := prime_leaf 10034205613792387421 596563948501331 3081662158734665981 drawn_220 (by decide +kernel)

theorem drawn_222 : Nat.Prime 448073783559626471112024604399 := prime_leaf 448073783559626471112024604399 10034205613792387421 191213617610304442303163422637 drawn_221 (by decide +kernel)

theorem drawn_223 : Nat.Prime 22746017548620878179530817017710837 := prime_leaf 22746017548620878179530817017710837 448073783559626471112024604399 19978473681791300114010985762432050 drawn_222 (by decide +kernel)

theorem drawn_224 : Nat.Prime 166801280949145399445600256017004365983769833 := prime_leaf 166801280949145399445600256017004365983769833 22746017548620878179530817017710837 17854193071381605352528216398111263534072162 drawn_223 (by decide +kernel)

theorem drawn_225 : Nat.Prime 11510199584215928113584481457262249859832907906406043516621 := prime_leaf 11510199584215928113584481457262249859832907906406043516621 166801280949145399445600256017004365983769833 8710923449083595803202653569438786151156234260470368394179 drawn_224 (by decide +kernel)

theorem drawn_226 : Nat.Prime 111859137153133575827437793277340883839450462216338033465941085155985569400559 := prime_leaf 111859137153133575827437793277340883839450462216338033465941085155985569400559 11510199584215928113584481457262249859832907906406043516621 108459033636465987078738114396417738336990100276579772306338170824624062630806 drawn_225 (by decide +kernel)

theorem accepts_8_3 (strict : Bool) : Accepts 8 strict 4981849536893214867#64 :=
  accepts_of 8 (by decide) 4981849536893214867#64 [0xaa90c6ef#32, 0xa2e28810#32, 0x7fe4c8e0#32, 0xfc85823e#32, 0x67842589#32, 0x8fbc367e#32, 0x63d115e9#32, 0xf74e072b#32] (by decide +kernel) (by decide +kernel) drawn_226 strict

theorem drawn_227 : Nat.Prime 487 := by norm_num

theorem drawn_228 : Nat.Prime 226943 := prime_leaf 226943 487 35882 drawn_227 (by decide +kernel)

theorem drawn_229 : Nat.Prime 5446633 := prime_leaf 5446633 226943 437317 drawn_228 (by decide +kernel)

theorem drawn_230 : Nat.Prime 20119862303 := prime_leaf 20119862303 5446633 12696046454 drawn_229 (by decide +kernel)

theorem drawn_231 : Nat.Prime 196047938280433 := prime_leaf 196047938280433 20119862303 99463529194421 drawn_230 (by decide +kernel)

theorem drawn_232 : Nat.Prime 7841917531217321 := prime_leaf 7841917531217321 196047938280433 1099511627776 drawn_231 (by decide +kernel)

theorem drawn_233 : Nat.Prime 250941360998954273 := prime_leaf 250941360998954273 7841917531217321 4294967296 drawn_232 (by decide +kernel)

theorem drawn_234 : Nat.Prime 66750402025721836619 := prime_leaf 66750402025721836619 250941360998954273 18111781316512382907 drawn_233 (by decide +kernel)

theorem drawn_235 : Nat.Prime 690487518682714908974654081 := prime_leaf 690487518682714908974654081 66750402025721836619 329317521539116929713120902 drawn_234 (by decide +kernel)

theorem drawn_236 : Nat.Prime 17077066285752783349974747962474612017 := prime_leaf 17077066285752783349974747962474612017 690487518682714908974654081 10027742920042756397543428543838180372 drawn_235 (by decide +kernel)

theorem drawn_237 : Nat.Prime 11539941111167679202482704140307179801298624928053 := prime_leaf 11539941111167679202482704140307179801298624928053 17077066285752783349974747962474612017 4471990668911661456630783502583832709026490983361 drawn_236 (by decide +kernel)

theorem drawn_238 : Nat.Prime 2077189400010182256446886745255292364233752487049541 := prime_leaf 2077189400010182256446886745255292364233752487049541 11539941111167679202482704140307179801298624928053 1606953058384535356991495897158711178463539228090459 drawn_237 (by decide +kernel)

theorem drawn_239 : Nat.Prime 92088671121676266909257534717514070527043773773928303770074052521552682337667 := prime_leaf 92088671121676266909257534717514070527043773773928303770074052521552682337667 2077189400010182256446886745255292364233752487049541 70108591697419188864183092571517427771434471264110088611095029924762808807176 drawn_238 (by decide +kernel)

theorem accepts_8_4 (strict : Bool) : Accepts 8 strict 9263113811533181012#64 :=
  accepts_of 8 (by decide) 9263113811533181012#64 [0xb9d6c583#32, 0x207329e8#32, 0xe203d401#32, 0xba417507#32, 0x16c8fc3a#32, 0x3e96b7a1#32, 0x54def907#32, 0xcb98573d#32] (by decide +kernel) (by decide +kernel) drawn_239 strict

theorem drawn_240 : Nat.Prime 18691 := by norm_num

theorem drawn_241 : Nat.Prime 103286467 := prime_leaf 103286467 18691 65200943 drawn_240 (by decide +kernel)

theorem drawn_242 : Nat.Prime 309961448029397 := prime_leaf 309961448029397 103286467 193129084245992 drawn_241 (by decide +kernel)

theorem drawn_243 : Nat.Prime 72530978838878899 := prime_leaf 72530978838878899 309961448029397 6619309638825942 drawn_242 (by decide +kernel)

theorem drawn_244 : Nat.Prime 1116727365335160298393069589 := prime_leaf 1116727365335160298393069589 72530978838878899 972663958929591359114858990 drawn_243 (by decide +kernel)

theorem drawn_245 : Nat.Prime 447211074928945049527646877528575071588005825547 := prime_leaf 447211074928945049527646877528575071588005825547 1116727365335160298393069589 444877593281885973417341856253172000191937547868 drawn_244 (by decide +kernel)

theorem drawn_246 : Nat.Prime 135080128750311500965229849464496546129063432294378356326901 := prime_leaf 135080128750311500965229849464496546129063432294378356326901 447211074928945049527646877528575071588005825547 28390668988912074161821899819219960024916063731650824326926 drawn_245 (by decide +kernel)

theorem drawn_247 : Nat.Prime 113576346423095092037891606709944350063644801689700073057938092242733679942157 := prime_leaf 113576346423095092037891606709944350063644801689700073057938092242733679942157 135080128750311500965229849464496546129063432294378356326901 41040831043774064291249631819485811788735468691707730379390811481914348259542 drawn_246 (by decide +kernel)

theorem accepts_8_5 (strict : Bool) : Accepts 8 strict 13656915986327606685#64 :=
  accepts_of 8 (by decide) 13656915986327606685#64 [0x7d229a0d#32, 0xcf0b3f66#32, 0x52990f27#32, 0x95159d6d#32, 0x15c5b0d5#32, 0xf8f91107#32, 0x40620f38#32, 0xfb19ef1b#32] (by decide +kernel) (by decide +kernel) drawn_247 strict

theorem drawn_248 : Nat.Prime 7951 := by norm_num

theorem drawn_249 : Nat.Prime 59998247 := prime_leaf 59998247 7951 26105119 drawn_248 (by decide +kernel)

theorem drawn_250 : Nat.Prime 170995003951 := prime_leaf 170995003951 59998247 45100403168 drawn_249 (by decide +kernel)

theorem drawn_251 : Nat.Prime 1025970023707 := prime_leaf 1025970023707 170995003951 64 drawn_250 (by decide +kernel)

theorem drawn_252 : Nat.Prime 1062904944560453 := prime_leaf 1062904944560453 1025970023707 551437838772823 drawn_251 (by decide +kernel)

theorem drawn_253 : Nat.Prime 387493835520223280896517591729 := prime_leaf 387493835520223280896517591729 1062904944560453 186538800290425609303389189457 drawn_252 (by decide +kernel)

theorem drawn_254 : Nat.Prime 774987671040446561793035183459 := prime_leaf 774987671040446561793035183459 387493835520223280896517591729 4 drawn_253 (by decide +kernel)

theorem drawn_255 : Nat.Prime 956564427400017756391078140694047826541225717 := prime_leaf 956564427400017756391078140694047826541225717 774987671040446561793035183459 123047727452736570760294020340489632779729780 drawn_254 (by decide +kernel)

theorem drawn_256 : Nat.Prime 508471387028753438587241496467328062676253942128521 := prime_leaf 508471387028753438587241496467328062676253942128521 956564427400017756391078140694047826541225717 134280163305363836912916519569507356032303233438425 drawn_255 (by decide +kernel)

theorem drawn_257 : Nat.Prime 40457327449818719564425655349600685311021360178143803232732730811 := prime_leaf 40457327449818719564425655349600685311021360178143803232732730811 508471387028753438587241496467328062676253942128521 25853450032779748828904384040883094217625679593683776302383094509 drawn_256 (by decide +kernel)

theorem drawn_258 : Nat.Prime 101570842179862885111419679541890091376600089409079012701362218440835171485923 := prime_leaf 101570842179862885111419679541890091376600089409079012701362218440835171485923 40457327449818719564425655349600685311021360178143803232732730811 24104384770539595945207227674826498379233026365620987211687705126413925367570 drawn_257 (by decide +kernel)

theorem accepts_8_6 (strict : Bool) : Accepts 8 strict 12012213603643350326#64 :=
  accepts_of 8 (by decide) 12012213603643350326#64 [0xf45e08e3#32, 0xed7a54ce#32, 0x5990b293#32, 0xe5957b44#32, 0x5beb43d1#32, 0xa8ad1bb0#32, 0x70c3d06c#32, 0xe08f0f35#32] (by decide +kernel) (by decide +kernel) drawn_258 strict

theorem drawn_259 : Nat.Prime 1381 := by norm_num

theorem drawn_260 : Nat.Prime 754027 := prime_leaf 754027 1381 180948 drawn_259 (by decide +kernel)

theorem drawn_261 : Nat.Prime 591157169 := prime_leaf 591157169 754027 357691460 drawn_260 (by decide +kernel)

theorem drawn_262 : Nat.Prime 4238970513060809 := prime_leaf 4238970513060809 591157169 1758889935010728 drawn_261 (by decide +kernel)

theorem drawn_263 : Nat.Prime 48537336748240786487811404303 := prime_leaf 48537336748240786487811404303 4238970513060809 33295168257064671594570331545 drawn_262 (by decide +kernel)

theorem drawn_264 : Nat.Prime 66699716935411999346831504924756783 := prime_leaf 66699716935411999346831504924756783 48537336748240786487811404303 4680683327463626638536826864068158 drawn_263 (by decide +kernel)

theorem drawn_265 : Nat.Prime 19865504135389942449733308593946670168845427243 := prime_leaf 19865504135389942449733308593946670168845427243 66699716935411999346831504924756783 13756565018744171481115377250082612077235824330 drawn_264 (by decide +kernel)

theorem drawn_266 : Nat.Prime 88130770677331040733959533909408553419635452611374039087050353628910642874807 := prime_leaf 88130770677331040733959533909408553419635452611374039087050353628910642874807 19865504135389942449733308593946670168845427243 64133907206223421594303357528638417234277811378667703308442169852269480166743 drawn_265 (by decide +kernel)

theorem accepts_8_7 (strict : Bool) : Accepts 8 strict 8701954907533803591#64 :=
  accepts_of 8 (by decide) 8701954907533803591#64 [0x721549b7#32, 0xddccde11#32, 0xb41aba33#32, 0xfa2aca04#32, 0xd5f5624d#32, 0x8020e0d0#32, 0x9c9e3aa3#32, 0xc2d83f9e#32] (by decide +kernel) (by decide +kernel) drawn_266 strict

theorem returns_1 (strict : Bool) (s : RandState) : Returns 1 strict s := by
  refine returns_of_accepts 1 (by decide) strict 2 (by decide +kernel) (fun i hi => ?_) s
  interval_cases i
  · exact ⟨_, by decide +kernel, accepts_1_0 strict⟩
  · exact ⟨_, by decide +kernel, accepts_1_1 strict⟩

theorem returns_2 (strict : Bool) (s : RandState) : Returns 2 strict s := by
  refine returns_of_accepts 2 (by decide) strict 2 (by decide +kernel) (fun i hi => ?_) s
  interval_cases i
  · exact ⟨_, by decide +kernel, accepts_2_0 strict⟩
  · exact ⟨_, by decide +kernel, accepts_2_1 strict⟩

theorem returns_3 (strict : Bool) (s : RandState) : Returns 3 strict s := by
  refine returns_of_accepts 3 (by decide) strict 4 (by decide +kernel) (fun i hi => ?_) s
  interval_cases i
  · exact ⟨_, by decide +kernel, accepts_3_0 strict⟩
  · exact ⟨_, by decide +kernel, accepts_3_1 strict⟩
  · exact ⟨_, by decide +kernel, accepts_3_2 strict⟩
  · exact ⟨_, by decide +kernel, accepts_3_3 strict⟩

theorem returns_4 (strict : Bool) (s : RandState) : Returns 4 strict s := by
  refine returns_of_accepts 4 (by decide) strict 4 (by decide +kernel) (fun i hi => ?_) s
  interval_cases i
  · exact ⟨_, by decide +kernel, accepts_4_0 strict⟩
  · exact ⟨_, by decide +kernel, accepts_4_1 strict⟩
  · exact ⟨_, by decide +kernel, accepts_4_2 strict⟩
  · exact ⟨_, by decide +kernel, accepts_4_3 strict⟩

theorem returns_5 (strict : Bool) (s : RandState) : Returns 5 strict s := by
  refine returns_of_accepts 5 (by decide) strict 2 (by decide +kernel) (fun i hi => ?_) s
  interval_cases i
  · exact ⟨_, by decide +kernel, accepts_5_0 strict⟩
  · exact ⟨_, by decide +kernel, accepts_5_1 strict⟩

theorem returns_6 (strict : Bool) (s : RandState) : Returns 6 strict s := by
  refine returns_of_accepts 6 (by decide) strict 2 (by decide +kernel) (fun i hi => ?_) s
  interval_cases i
  · exact ⟨_, by decide +kernel, accepts_6_0 strict⟩
  · exact ⟨_, by decide +kernel, accepts_6_1 strict⟩

theorem returns_7 (strict : Bool) (s : RandState) : Returns 7 strict s := by
  refine returns_of_accepts 7 (by decide) strict 8 (by decide +kernel) (fun i hi => ?_) s
  interval_cases i
  · exact ⟨_, by decide +kernel, accepts_7_0 strict⟩
  · exact ⟨_, by decide +kernel, accepts_7_1 strict⟩
  · exact ⟨_, by decide +kernel, accepts_7_2 strict⟩
  · exact ⟨_, by decide +kernel, accepts_7_3 strict⟩
  · exact ⟨_, by decide +kernel, accepts_7_4 strict⟩
  · exact ⟨_, by decide +kernel, accepts_7_5 strict⟩
  · exact ⟨_, by decide +kernel, accepts_7_6 strict⟩
  · exact ⟨_, by decide +kernel, accepts_7_7 strict⟩

theorem returns_8 (strict : Bool) (s : RandState) : Returns 8 strict s := by
  refine returns_of_accepts 8 (by decide) strict 8 (by decide +kernel) (fun i hi => ?_) s
  interval_cases i
  · exact ⟨_, by decide +kernel, accepts_8_0 strict⟩
  · exact ⟨_, by decide +kernel, accepts_8_1 strict⟩
  · exact ⟨_, by decide +kernel, accepts_8_2 strict⟩
  · exact ⟨_, by decide +kernel, accepts_8_3 strict⟩
  · exact ⟨_, by decide +kernel, accepts_8_4 strict⟩
  · exact ⟨_, by decide +kernel, accepts_8_5 strict⟩
  · exact ⟨_, by decide +kernel, accepts_8_6 strict⟩
  · exact ⟨_, by decide +kernel, accepts_8_7 strict⟩

/-- A state that meets the condition of `C137_iff` at width 192 for all states that are even. -/
example : (∃ t : U64, t.toNat % Nat.gcd (roundSteps 6) (2 ^ 64) = (0#64).toNat % Nat.gcd (roundSteps 6) (2 ^ 64) ∧ Accepts 6 true t) :=
  (C137_iff 6 (by decide) true 0#64).mp (returns_6 true _)

/-- C137 for widths of up to 256 bits: `random_prime` returns in every state. Missing: larger widths, for which `C137_iff` says what it takes. -/
theorem C137_small_partial (w : Nat) (hw : 0 < w) (h : w ≤ 8) (strict : Bool) (s : RandState) : Returns w strict s := by
  interval_cases w
  · exact returns_1 strict s
  · exact returns_2 strict s
  · exact returns_3 strict s
  · exact returns_4 strict s
  · exact returns_5 strict s
  · exact returns_6 strict s
  · exact returns_7 strict s
  · exact returns_8 strict s

example : (0 < 8 ∧ 8 ≤ 8) ∧ ∃ s : RandState, s.testValues = [5#64] := ⟨by decide, ⟨[5#64], 0#64⟩, rfl⟩

end Verif.Props
