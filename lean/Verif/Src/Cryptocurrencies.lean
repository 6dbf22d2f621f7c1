import Verif.Src.Class
/-!
# `bip38/cryptocurrencies.py` (generated by `tools/gen_classes.py`, do not edit)
-/
namespace Bip38.Src

/-- `bip38/cryptocurrencies.py:12-15` -/
def class_ICryptocurrency_L12 : ClassText :=
  ⟨"ICryptocurrency", [], [("ALPHABET", (eConst .none))]⟩

/-- `bip38/cryptocurrencies.py:18-25` -/
def class_Adcoin_L18 : ClassText :=
  ⟨"Adcoin", ["ICryptocurrency"], [("NETWORKS", (eDict [("mainnet", (eDict [("wif_prefix", (eConst (.int 0xb0))), ("address_prefix", (eConst (.int 0x17)))]))]))]⟩

/-- `bip38/cryptocurrencies.py:28-35` -/
def class_Anon_L28 : ClassText :=
  ⟨"Anon", ["ICryptocurrency"], [("NETWORKS", (eDict [("mainnet", (eDict [("wif_prefix", (eConst (.int 0x80))), ("address_prefix", (eConst (.int 0x582)))]))]))]⟩

/-- `bip38/cryptocurrencies.py:38-45` -/
def class_Argoneum_L38 : ClassText :=
  ⟨"Argoneum", ["ICryptocurrency"], [("NETWORKS", (eDict [("mainnet", (eDict [("wif_prefix", (eConst (.int 0xbf))), ("address_prefix", (eConst (.int 0x32)))]))]))]⟩

/-- `bip38/cryptocurrencies.py:48-55` -/
def class_Artax_L48 : ClassText :=
  ⟨"Artax", ["ICryptocurrency"], [("NETWORKS", (eDict [("mainnet", (eDict [("wif_prefix", (eConst (.int 0x97))), ("address_prefix", (eConst (.int 0x17)))]))]))]⟩

/-- `bip38/cryptocurrencies.py:58-65` -/
def class_Aryacoin_L58 : ClassText :=
  ⟨"Aryacoin", ["ICryptocurrency"], [("NETWORKS", (eDict [("mainnet", (eDict [("wif_prefix", (eConst (.int 0x97))), ("address_prefix", (eConst (.int 0x17)))]))]))]⟩

/-- `bip38/cryptocurrencies.py:68-75` -/
def class_Asiacoin_L68 : ClassText :=
  ⟨"Asiacoin", ["ICryptocurrency"], [("NETWORKS", (eDict [("mainnet", (eDict [("wif_prefix", (eConst (.int 0x97))), ("address_prefix", (eConst (.int 0x17)))]))]))]⟩

/-- `bip38/cryptocurrencies.py:78-85` -/
def class_Auroracoin_L78 : ClassText :=
  ⟨"Auroracoin", ["ICryptocurrency"], [("NETWORKS", (eDict [("mainnet", (eDict [("wif_prefix", (eConst (.int 0x97))), ("address_prefix", (eConst (.int 0x17)))]))]))]⟩

/-- `bip38/cryptocurrencies.py:88-95` -/
def class_Avian_L88 : ClassText :=
  ⟨"Avian", ["ICryptocurrency"], [("NETWORKS", (eDict [("mainnet", (eDict [("wif_prefix", (eConst (.int 0x80))), ("address_prefix", (eConst (.int 0x3c)))]))]))]⟩

/-- `bip38/cryptocurrencies.py:98-105` -/
def class_Axe_L98 : ClassText :=
  ⟨"Axe", ["ICryptocurrency"], [("NETWORKS", (eDict [("mainnet", (eDict [("wif_prefix", (eConst (.int 0xcc))), ("address_prefix", (eConst (.int 0x37)))]))]))]⟩

/-- `bip38/cryptocurrencies.py:108-115` -/
def class_Bata_L108 : ClassText :=
  ⟨"Bata", ["ICryptocurrency"], [("NETWORKS", (eDict [("mainnet", (eDict [("wif_prefix", (eConst (.int 0xa4))), ("address_prefix", (eConst (.int 0x19)))]))]))]⟩

/-- `bip38/cryptocurrencies.py:118-125` -/
def class_BeetleCoin_L118 : ClassText :=
  ⟨"BeetleCoin", ["ICryptocurrency"], [("NETWORKS", (eDict [("mainnet", (eDict [("wif_prefix", (eConst (.int 0x99))), ("address_prefix", (eConst (.int 0x1a)))]))]))]⟩

/-- `bip38/cryptocurrencies.py:128-135` -/
def class_BelaCoin_L128 : ClassText :=
  ⟨"BelaCoin", ["ICryptocurrency"], [("NETWORKS", (eDict [("mainnet", (eDict [("wif_prefix", (eConst (.int 0x99))), ("address_prefix", (eConst (.int 0x19)))]))]))]⟩

/-- `bip38/cryptocurrencies.py:138-145` -/
def class_BitCloud_L138 : ClassText :=
  ⟨"BitCloud", ["ICryptocurrency"], [("NETWORKS", (eDict [("mainnet", (eDict [("wif_prefix", (eConst (.int 0x99))), ("address_prefix", (eConst (.int 0x19)))]))]))]⟩

/-- `bip38/cryptocurrencies.py:148-164` -/
def class_Bitcoin_L148 : ClassText :=
  ⟨"Bitcoin", ["ICryptocurrency"], [("NETWORKS", (eDict [("mainnet", (eDict [("wif_prefix", (eConst (.int 0x80))), ("address_prefix", (eConst (.int 0x0)))])), ("testnet", (eDict [("wif_prefix", (eConst (.int 0xef))), ("address_prefix", (eConst (.int 0x6f)))])), ("regtest", (eDict [("wif_prefix", (eConst (.int 0xef))), ("address_prefix", (eConst (.int 0x6f)))]))])), ("ALPHABET", (eConst (.str "123456789ABCDEFGHJKLMNPQRSTUVWXYZabcdefghijkmnopqrstuvwxyz".toList)))]⟩

/-- `bip38/cryptocurrencies.py:167-174` -/
def class_BitcoinAtom_L167 : ClassText :=
  ⟨"BitcoinAtom", ["ICryptocurrency"], [("NETWORKS", (eDict [("mainnet", (eDict [("wif_prefix", (eConst (.int 0x80))), ("address_prefix", (eConst (.int 0x17)))]))]))]⟩

/-- `bip38/cryptocurrencies.py:177-184` -/
def class_BitcoinGold_L177 : ClassText :=
  ⟨"BitcoinGold", ["ICryptocurrency"], [("NETWORKS", (eDict [("mainnet", (eDict [("wif_prefix", (eConst (.int 0x80))), ("address_prefix", (eConst (.int 0x26)))]))]))]⟩

/-- `bip38/cryptocurrencies.py:187-194` -/
def class_BitcoinGreen_L187 : ClassText :=
  ⟨"BitcoinGreen", ["ICryptocurrency"], [("NETWORKS", (eDict [("mainnet", (eDict [("wif_prefix", (eConst (.int 0x2e))), ("address_prefix", (eConst (.int 0x26)))]))]))]⟩

/-- `bip38/cryptocurrencies.py:197-204` -/
def class_BitcoinPlus_L197 : ClassText :=
  ⟨"BitcoinPlus", ["ICryptocurrency"], [("NETWORKS", (eDict [("mainnet", (eDict [("wif_prefix", (eConst (.int 0x99))), ("address_prefix", (eConst (.int 0x19)))]))]))]⟩

/-- `bip38/cryptocurrencies.py:207-218` -/
def class_BitcoinPrivate_L207 : ClassText :=
  ⟨"BitcoinPrivate", ["ICryptocurrency"], [("NETWORKS", (eDict [("mainnet", (eDict [("wif_prefix", (eConst (.int 0x80))), ("address_prefix", (eConst (.int 0x1325)))])), ("testnet", (eDict [("wif_prefix", (eConst (.int 0xef))), ("address_prefix", (eConst (.int 0x1957)))]))]))]⟩

/-- `bip38/cryptocurrencies.py:221-228` -/
def class_BitcoinSV_L221 : ClassText :=
  ⟨"BitcoinSV", ["ICryptocurrency"], [("NETWORKS", (eDict [("mainnet", (eDict [("wif_prefix", (eConst (.int 0x80))), ("address_prefix", (eConst (.int 0x0)))]))]))]⟩

/-- `bip38/cryptocurrencies.py:231-238` -/
def class_BitcoinZ_L231 : ClassText :=
  ⟨"BitcoinZ", ["ICryptocurrency"], [("NETWORKS", (eDict [("mainnet", (eDict [("wif_prefix", (eConst (.int 0x80))), ("address_prefix", (eConst (.int 0x1cb8)))]))]))]⟩

/-- `bip38/cryptocurrencies.py:241-248` -/
def class_Bitcore_L241 : ClassText :=
  ⟨"Bitcore", ["ICryptocurrency"], [("NETWORKS", (eDict [("mainnet", (eDict [("wif_prefix", (eConst (.int 0x80))), ("address_prefix", (eConst (.int 0x3)))]))]))]⟩

/-- `bip38/cryptocurrencies.py:251-258` -/
def class_BitSend_L251 : ClassText :=
  ⟨"BitSend", ["ICryptocurrency"], [("NETWORKS", (eDict [("mainnet", (eDict [("wif_prefix", (eConst (.int 0xcc))), ("address_prefix", (eConst (.int 0x66)))]))]))]⟩

/-- `bip38/cryptocurrencies.py:261-268` -/
def class_Blackcoin_L261 : ClassText :=
  ⟨"Blackcoin", ["ICryptocurrency"], [("NETWORKS", (eDict [("mainnet", (eDict [("wif_prefix", (eConst (.int 0x99))), ("address_prefix", (eConst (.int 0x19)))]))]))]⟩

/-- `bip38/cryptocurrencies.py:271-282` -/
def class_Blocknode_L271 : ClassText :=
  ⟨"Blocknode", ["ICryptocurrency"], [("NETWORKS", (eDict [("mainnet", (eDict [("wif_prefix", (eConst (.int 0x4b))), ("address_prefix", (eConst (.int 0x19)))])), ("testnet", (eDict [("wif_prefix", (eConst (.int 0x89))), ("address_prefix", (eConst (.int 0x55)))]))]))]⟩

/-- `bip38/cryptocurrencies.py:285-292` -/
def class_BlockStamp_L285 : ClassText :=
  ⟨"BlockStamp", ["ICryptocurrency"], [("NETWORKS", (eDict [("mainnet", (eDict [("wif_prefix", (eConst (.int 0x80))), ("address_prefix", (eConst (.int 0x0)))]))]))]⟩

/-- `bip38/cryptocurrencies.py:295-302` -/
def class_Bolivarcoin_L295 : ClassText :=
  ⟨"Bolivarcoin", ["ICryptocurrency"], [("NETWORKS", (eDict [("mainnet", (eDict [("wif_prefix", (eConst (.int 0xd5))), ("address_prefix", (eConst (.int 0x55)))]))]))]⟩

/-- `bip38/cryptocurrencies.py:305-312` -/
def class_BritCoin_L305 : ClassText :=
  ⟨"BritCoin", ["ICryptocurrency"], [("NETWORKS", (eDict [("mainnet", (eDict [("wif_prefix", (eConst (.int 0x99))), ("address_prefix", (eConst (.int 0x19)))]))]))]⟩

/-- `bip38/cryptocurrencies.py:315-322` -/
def class_CanadaeCoin_L315 : ClassText :=
  ⟨"CanadaeCoin", ["ICryptocurrency"], [("NETWORKS", (eDict [("mainnet", (eDict [("wif_prefix", (eConst (.int 0x9c))), ("address_prefix", (eConst (.int 0x1c)))]))]))]⟩

/-- `bip38/cryptocurrencies.py:325-332` -/
def class_Cannacoin_L325 : ClassText :=
  ⟨"Cannacoin", ["ICryptocurrency"], [("NETWORKS", (eDict [("mainnet", (eDict [("wif_prefix", (eConst (.int 0x9c))), ("address_prefix", (eConst (.int 0x1c)))]))]))]⟩

/-- `bip38/cryptocurrencies.py:335-342` -/
def class_Clams_L335 : ClassText :=
  ⟨"Clams", ["ICryptocurrency"], [("NETWORKS", (eDict [("mainnet", (eDict [("wif_prefix", (eConst (.int 0x85))), ("address_prefix", (eConst (.int 0x89)))]))]))]⟩

/-- `bip38/cryptocurrencies.py:345-352` -/
def class_ClubCoin_L345 : ClassText :=
  ⟨"ClubCoin", ["ICryptocurrency"], [("NETWORKS", (eDict [("mainnet", (eDict [("wif_prefix", (eConst (.int 0x99))), ("address_prefix", (eConst (.int 0x1c)))]))]))]⟩

/-- `bip38/cryptocurrencies.py:355-362` -/
def class_Compcoin_L355 : ClassText :=
  ⟨"Compcoin", ["ICryptocurrency"], [("NETWORKS", (eDict [("mainnet", (eDict [("wif_prefix", (eConst (.int 0x9c))), ("address_prefix", (eConst (.int 0x1c)))]))]))]⟩

/-- `bip38/cryptocurrencies.py:365-372` -/
def class_CPUChain_L365 : ClassText :=
  ⟨"CPUChain", ["ICryptocurrency"], [("NETWORKS", (eDict [("mainnet", (eDict [("wif_prefix", (eConst (.int 0x80))), ("address_prefix", (eConst (.int 0x1c)))]))]))]⟩

/-- `bip38/cryptocurrencies.py:375-382` -/
def class_CranePay_L375 : ClassText :=
  ⟨"CranePay", ["ICryptocurrency"], [("NETWORKS", (eDict [("mainnet", (eDict [("wif_prefix", (eConst (.int 0x7b))), ("address_prefix", (eConst (.int 0x1c)))]))]))]⟩

/-- `bip38/cryptocurrencies.py:385-392` -/
def class_Crave_L385 : ClassText :=
  ⟨"Crave", ["ICryptocurrency"], [("NETWORKS", (eDict [("mainnet", (eDict [("wif_prefix", (eConst (.int 0x99))), ("address_prefix", (eConst (.int 0x46)))]))]))]⟩

/-- `bip38/cryptocurrencies.py:395-406` -/
def class_Dash_L395 : ClassText :=
  ⟨"Dash", ["ICryptocurrency"], [("NETWORKS", (eDict [("mainnet", (eDict [("wif_prefix", (eConst (.int 0xcc))), ("address_prefix", (eConst (.int 0x4c)))])), ("testnet", (eDict [("wif_prefix", (eConst (.int 0xef))), ("address_prefix", (eConst (.int 0x8c)))]))]))]⟩

/-- `bip38/cryptocurrencies.py:409-416` -/
def class_DeepOnion_L409 : ClassText :=
  ⟨"DeepOnion", ["ICryptocurrency"], [("NETWORKS", (eDict [("mainnet", (eDict [("wif_prefix", (eConst (.int 0x9f))), ("address_prefix", (eConst (.int 0x1f)))]))]))]⟩

/-- `bip38/cryptocurrencies.py:419-426` -/
def class_Defcoin_L419 : ClassText :=
  ⟨"Defcoin", ["ICryptocurrency"], [("NETWORKS", (eDict [("mainnet", (eDict [("wif_prefix", (eConst (.int 0x9e))), ("address_prefix", (eConst (.int 0x1e)))]))]))]⟩

/-- `bip38/cryptocurrencies.py:429-436` -/
def class_Denarius_L429 : ClassText :=
  ⟨"Denarius", ["ICryptocurrency"], [("NETWORKS", (eDict [("mainnet", (eDict [("wif_prefix", (eConst (.int 0x9e))), ("address_prefix", (eConst (.int 0x1e)))]))]))]⟩

/-- `bip38/cryptocurrencies.py:439-446` -/
def class_Diamond_L439 : ClassText :=
  ⟨"Diamond", ["ICryptocurrency"], [("NETWORKS", (eDict [("mainnet", (eDict [("wif_prefix", (eConst (.int 0xda))), ("address_prefix", (eConst (.int 0x5a)))]))]))]⟩

/-- `bip38/cryptocurrencies.py:449-456` -/
def class_DigiByte_L449 : ClassText :=
  ⟨"DigiByte", ["ICryptocurrency"], [("NETWORKS", (eDict [("mainnet", (eDict [("wif_prefix", (eConst (.int 0x80))), ("address_prefix", (eConst (.int 0x1e)))]))]))]⟩

/-- `bip38/cryptocurrencies.py:459-466` -/
def class_Digitalcoin_L459 : ClassText :=
  ⟨"Digitalcoin", ["ICryptocurrency"], [("NETWORKS", (eDict [("mainnet", (eDict [("wif_prefix", (eConst (.int 0x9e))), ("address_prefix", (eConst (.int 0x1e)))]))]))]⟩

/-- `bip38/cryptocurrencies.py:469-480` -/
def class_Divi_L469 : ClassText :=
  ⟨"Divi", ["ICryptocurrency"], [("NETWORKS", (eDict [("mainnet", (eDict [("wif_prefix", (eConst (.int 0xd4))), ("address_prefix", (eConst (.int 0x1e)))])), ("testnet", (eDict [("wif_prefix", (eConst (.int 0xd4))), ("address_prefix", (eConst (.int 0x1e)))]))]))]⟩

/-- `bip38/cryptocurrencies.py:483-494` -/
def class_Dogecoin_L483 : ClassText :=
  ⟨"Dogecoin", ["ICryptocurrency"], [("NETWORKS", (eDict [("mainnet", (eDict [("wif_prefix", (eConst (.int 0xf1))), ("address_prefix", (eConst (.int 0x1e)))])), ("testnet", (eDict [("wif_prefix", (eConst (.int 0xf1))), ("address_prefix", (eConst (.int 0x71)))]))]))]⟩

/-- `bip38/cryptocurrencies.py:497-504` -/
def class_Ecoin_L497 : ClassText :=
  ⟨"Ecoin", ["ICryptocurrency"], [("NETWORKS", (eDict [("mainnet", (eDict [("wif_prefix", (eConst (.int 0xdc))), ("address_prefix", (eConst (.int 0x5c)))]))]))]⟩

/-- `bip38/cryptocurrencies.py:507-514` -/
def class_EDRCoin_L507 : ClassText :=
  ⟨"EDRCoin", ["ICryptocurrency"], [("NETWORKS", (eDict [("mainnet", (eDict [("wif_prefix", (eConst (.int 0xdd))), ("address_prefix", (eConst (.int 0x5d)))]))]))]⟩

/-- `bip38/cryptocurrencies.py:517-524` -/
def class_eGulden_L517 : ClassText :=
  ⟨"eGulden", ["ICryptocurrency"], [("NETWORKS", (eDict [("mainnet", (eDict [("wif_prefix", (eConst (.int 0xb0))), ("address_prefix", (eConst (.int 0x30)))]))]))]⟩

/-- `bip38/cryptocurrencies.py:527-534` -/
def class_Einsteinium_L527 : ClassText :=
  ⟨"Einsteinium", ["ICryptocurrency"], [("NETWORKS", (eDict [("mainnet", (eDict [("wif_prefix", (eConst (.int 0xa1))), ("address_prefix", (eConst (.int 0x21)))]))]))]⟩

/-- `bip38/cryptocurrencies.py:537-544` -/
def class_Elastos_L537 : ClassText :=
  ⟨"Elastos", ["ICryptocurrency"], [("NETWORKS", (eDict [("mainnet", (eDict [("wif_prefix", (eConst (.int 0x80))), ("address_prefix", (eConst (.int 0x21)))]))]))]⟩

/-- `bip38/cryptocurrencies.py:547-554` -/
def class_Energi_L547 : ClassText :=
  ⟨"Energi", ["ICryptocurrency"], [("NETWORKS", (eDict [("mainnet", (eDict [("wif_prefix", (eConst (.int 0x6a))), ("address_prefix", (eConst (.int 0x21)))]))]))]⟩

/-- `bip38/cryptocurrencies.py:557-564` -/
def class_EuropeCoin_L557 : ClassText :=
  ⟨"EuropeCoin", ["ICryptocurrency"], [("NETWORKS", (eDict [("mainnet", (eDict [("wif_prefix", (eConst (.int 0xa8))), ("address_prefix", (eConst (.int 0x21)))]))]))]⟩

/-- `bip38/cryptocurrencies.py:567-578` -/
def class_Evrmore_L567 : ClassText :=
  ⟨"Evrmore", ["ICryptocurrency"], [("NETWORKS", (eDict [("mainnet", (eDict [("wif_prefix", (eConst (.int 0x80))), ("address_prefix", (eConst (.int 0x21)))])), ("testnet", (eDict [("wif_prefix", (eConst (.int 0xef))), ("address_prefix", (eConst (.int 0x6f)))]))]))]⟩

/-- `bip38/cryptocurrencies.py:581-588` -/
def class_ExclusiveCoin_L581 : ClassText :=
  ⟨"ExclusiveCoin", ["ICryptocurrency"], [("NETWORKS", (eDict [("mainnet", (eDict [("wif_prefix", (eConst (.int 0xa1))), ("address_prefix", (eConst (.int 0x21)))]))]))]⟩

/-- `bip38/cryptocurrencies.py:591-598` -/
def class_Feathercoin_L591 : ClassText :=
  ⟨"Feathercoin", ["ICryptocurrency"], [("NETWORKS", (eDict [("mainnet", (eDict [("wif_prefix", (eConst (.int 0x8e))), ("address_prefix", (eConst (.int 0xe)))]))]))]⟩

/-- `bip38/cryptocurrencies.py:601-608` -/
def class_Firo_L601 : ClassText :=
  ⟨"Firo", ["ICryptocurrency"], [("NETWORKS", (eDict [("mainnet", (eDict [("wif_prefix", (eConst (.int 0xd2))), ("address_prefix", (eConst (.int 0x52)))]))]))]⟩

/-- `bip38/cryptocurrencies.py:611-618` -/
def class_Firstcoin_L611 : ClassText :=
  ⟨"Firstcoin", ["ICryptocurrency"], [("NETWORKS", (eDict [("mainnet", (eDict [("wif_prefix", (eConst (.int 0xa3))), ("address_prefix", (eConst (.int 0x23)))]))]))]⟩

/-- `bip38/cryptocurrencies.py:621-632` -/
def class_FIX_L621 : ClassText :=
  ⟨"FIX", ["ICryptocurrency"], [("NETWORKS", (eDict [("mainnet", (eDict [("wif_prefix", (eConst (.int 0x3c))), ("address_prefix", (eConst (.int 0x23)))])), ("testnet", (eDict [("wif_prefix", (eConst (.int 0xed))), ("address_prefix", (eConst (.int 0x4c)))]))]))]⟩

/-- `bip38/cryptocurrencies.py:635-642` -/
def class_Flashcoin_L635 : ClassText :=
  ⟨"Flashcoin", ["ICryptocurrency"], [("NETWORKS", (eDict [("mainnet", (eDict [("wif_prefix", (eConst (.int 0xc4))), ("address_prefix", (eConst (.int 0x44)))]))]))]⟩

/-- `bip38/cryptocurrencies.py:645-652` -/
def class_Flux_L645 : ClassText :=
  ⟨"Flux", ["ICryptocurrency"], [("NETWORKS", (eDict [("mainnet", (eDict [("wif_prefix", (eConst (.int 0x80))), ("address_prefix", (eConst (.int 0x1cb8)))]))]))]⟩

/-- `bip38/cryptocurrencies.py:655-666` -/
def class_Foxdcoin_L655 : ClassText :=
  ⟨"Foxdcoin", ["ICryptocurrency"], [("NETWORKS", (eDict [("mainnet", (eDict [("wif_prefix", (eConst (.int 0x80))), ("address_prefix", (eConst (.int 0x23)))])), ("testnet", (eDict [("wif_prefix", (eConst (.int 0xef))), ("address_prefix", (eConst (.int 0x5f)))]))]))]⟩

/-- `bip38/cryptocurrencies.py:669-676` -/
def class_FujiCoin_L669 : ClassText :=
  ⟨"FujiCoin", ["ICryptocurrency"], [("NETWORKS", (eDict [("mainnet", (eDict [("wif_prefix", (eConst (.int 0xa4))), ("address_prefix", (eConst (.int 0x24)))]))]))]⟩

/-- `bip38/cryptocurrencies.py:679-686` -/
def class_GameCredits_L679 : ClassText :=
  ⟨"GameCredits", ["ICryptocurrency"], [("NETWORKS", (eDict [("mainnet", (eDict [("wif_prefix", (eConst (.int 0xa6))), ("address_prefix", (eConst (.int 0x26)))]))]))]⟩

/-- `bip38/cryptocurrencies.py:689-696` -/
def class_GCRCoin_L689 : ClassText :=
  ⟨"GCRCoin", ["ICryptocurrency"], [("NETWORKS", (eDict [("mainnet", (eDict [("wif_prefix", (eConst (.int 0x9a))), ("address_prefix", (eConst (.int 0x26)))]))]))]⟩

/-- `bip38/cryptocurrencies.py:699-706` -/
def class_GoByte_L699 : ClassText :=
  ⟨"GoByte", ["ICryptocurrency"], [("NETWORKS", (eDict [("mainnet", (eDict [("wif_prefix", (eConst (.int 0xc6))), ("address_prefix", (eConst (.int 0x26)))]))]))]⟩

/-- `bip38/cryptocurrencies.py:709-716` -/
def class_Gridcoin_L709 : ClassText :=
  ⟨"Gridcoin", ["ICryptocurrency"], [("NETWORKS", (eDict [("mainnet", (eDict [("wif_prefix", (eConst (.int 0xbe))), ("address_prefix", (eConst (.int 0x3e)))]))]))]⟩

/-- `bip38/cryptocurrencies.py:719-730` -/
def class_GroestlCoin_L719 : ClassText :=
  ⟨"GroestlCoin", ["ICryptocurrency"], [("NETWORKS", (eDict [("mainnet", (eDict [("wif_prefix", (eConst (.int 0x80))), ("address_prefix", (eConst (.int 0x24)))])), ("testnet", (eDict [("wif_prefix", (eConst (.int 0xef))), ("address_prefix", (eConst (.int 0x6f)))]))]))]⟩

/-- `bip38/cryptocurrencies.py:733-740` -/
def class_Gulden_L733 : ClassText :=
  ⟨"Gulden", ["ICryptocurrency"], [("NETWORKS", (eDict [("mainnet", (eDict [("wif_prefix", (eConst (.int 0x62))), ("address_prefix", (eConst (.int 0x26)))]))]))]⟩

/-- `bip38/cryptocurrencies.py:743-750` -/
def class_Helleniccoin_L743 : ClassText :=
  ⟨"Helleniccoin", ["ICryptocurrency"], [("NETWORKS", (eDict [("mainnet", (eDict [("wif_prefix", (eConst (.int 0xb0))), ("address_prefix", (eConst (.int 0x30)))]))]))]⟩

/-- `bip38/cryptocurrencies.py:753-760` -/
def class_Hempcoin_L753 : ClassText :=
  ⟨"Hempcoin", ["ICryptocurrency"], [("NETWORKS", (eDict [("mainnet", (eDict [("wif_prefix", (eConst (.int 0xa8))), ("address_prefix", (eConst (.int 0x28)))]))]))]⟩

/-- `bip38/cryptocurrencies.py:763-770` -/
def class_Horizen_L763 : ClassText :=
  ⟨"Horizen", ["ICryptocurrency"], [("NETWORKS", (eDict [("mainnet", (eDict [("wif_prefix", (eConst (.int 0x80))), ("address_prefix", (eConst (.int 0x2089)))]))]))]⟩

/-- `bip38/cryptocurrencies.py:773-780` -/
def class_Hush_L773 : ClassText :=
  ⟨"Hush", ["ICryptocurrency"], [("NETWORKS", (eDict [("mainnet", (eDict [("wif_prefix", (eConst (.int 0x80))), ("address_prefix", (eConst (.int 0x1cb8)))]))]))]⟩

/-- `bip38/cryptocurrencies.py:783-790` -/
def class_InsaneCoin_L783 : ClassText :=
  ⟨"InsaneCoin", ["ICryptocurrency"], [("NETWORKS", (eDict [("mainnet", (eDict [("wif_prefix", (eConst (.int 0x37))), ("address_prefix", (eConst (.int 0x66)))]))]))]⟩

/-- `bip38/cryptocurrencies.py:793-800` -/
def class_InternetOfPeople_L793 : ClassText :=
  ⟨"InternetOfPeople", ["ICryptocurrency"], [("NETWORKS", (eDict [("mainnet", (eDict [("wif_prefix", (eConst (.int 0x31))), ("address_prefix", (eConst (.int 0x75)))]))]))]⟩

/-- `bip38/cryptocurrencies.py:803-810` -/
def class_IXCoin_L803 : ClassText :=
  ⟨"IXCoin", ["ICryptocurrency"], [("NETWORKS", (eDict [("mainnet", (eDict [("wif_prefix", (eConst (.int 0x80))), ("address_prefix", (eConst (.int 0x8a)))]))]))]⟩

/-- `bip38/cryptocurrencies.py:813-820` -/
def class_Jumbucks_L813 : ClassText :=
  ⟨"Jumbucks", ["ICryptocurrency"], [("NETWORKS", (eDict [("mainnet", (eDict [("wif_prefix", (eConst (.int 0xab))), ("address_prefix", (eConst (.int 0x2b)))]))]))]⟩

/-- `bip38/cryptocurrencies.py:823-830` -/
def class_Kobocoin_L823 : ClassText :=
  ⟨"Kobocoin", ["ICryptocurrency"], [("NETWORKS", (eDict [("mainnet", (eDict [("wif_prefix", (eConst (.int 0xa3))), ("address_prefix", (eConst (.int 0x23)))]))]))]⟩

/-- `bip38/cryptocurrencies.py:833-840` -/
def class_Komodo_L833 : ClassText :=
  ⟨"Komodo", ["ICryptocurrency"], [("NETWORKS", (eDict [("mainnet", (eDict [("wif_prefix", (eConst (.int 0xbc))), ("address_prefix", (eConst (.int 0x3c)))]))]))]⟩

/-- `bip38/cryptocurrencies.py:843-850` -/
def class_Landcoin_L843 : ClassText :=
  ⟨"Landcoin", ["ICryptocurrency"], [("NETWORKS", (eDict [("mainnet", (eDict [("wif_prefix", (eConst (.int 0xb0))), ("address_prefix", (eConst (.int 0x30)))]))]))]⟩

/-- `bip38/cryptocurrencies.py:853-860` -/
def class_LBRYCredits_L853 : ClassText :=
  ⟨"LBRYCredits", ["ICryptocurrency"], [("NETWORKS", (eDict [("mainnet", (eDict [("wif_prefix", (eConst (.int 0x1c))), ("address_prefix", (eConst (.int 0x55)))]))]))]⟩

/-- `bip38/cryptocurrencies.py:863-870` -/
def class_Linx_L863 : ClassText :=
  ⟨"Linx", ["ICryptocurrency"], [("NETWORKS", (eDict [("mainnet", (eDict [("wif_prefix", (eConst (.int 0xcb))), ("address_prefix", (eConst (.int 0x4b)))]))]))]⟩

/-- `bip38/cryptocurrencies.py:873-884` -/
def class_Litecoin_L873 : ClassText :=
  ⟨"Litecoin", ["ICryptocurrency"], [("NETWORKS", (eDict [("mainnet", (eDict [("wif_prefix", (eConst (.int 0xb0))), ("address_prefix", (eConst (.int 0x30)))])), ("testnet", (eDict [("wif_prefix", (eConst (.int 0xef))), ("address_prefix", (eConst (.int 0x6f)))]))]))]⟩

/-- `bip38/cryptocurrencies.py:887-894` -/
def class_LitecoinCash_L887 : ClassText :=
  ⟨"LitecoinCash", ["ICryptocurrency"], [("NETWORKS", (eDict [("mainnet", (eDict [("wif_prefix", (eConst (.int 0xb0))), ("address_prefix", (eConst (.int 0x1c)))]))]))]⟩

/-- `bip38/cryptocurrencies.py:897-904` -/
def class_LitecoinZ_L897 : ClassText :=
  ⟨"LitecoinZ", ["ICryptocurrency"], [("NETWORKS", (eDict [("mainnet", (eDict [("wif_prefix", (eConst (.int 0x80))), ("address_prefix", (eConst (.int 0xab3)))]))]))]⟩

/-- `bip38/cryptocurrencies.py:907-914` -/
def class_Lkrcoin_L907 : ClassText :=
  ⟨"Lkrcoin", ["ICryptocurrency"], [("NETWORKS", (eDict [("mainnet", (eDict [("wif_prefix", (eConst (.int 0xb0))), ("address_prefix", (eConst (.int 0x30)))]))]))]⟩

/-- `bip38/cryptocurrencies.py:917-924` -/
def class_Lynx_L917 : ClassText :=
  ⟨"Lynx", ["ICryptocurrency"], [("NETWORKS", (eDict [("mainnet", (eDict [("wif_prefix", (eConst (.int 0xad))), ("address_prefix", (eConst (.int 0x2d)))]))]))]⟩

/-- `bip38/cryptocurrencies.py:927-934` -/
def class_Mazacoin_L927 : ClassText :=
  ⟨"Mazacoin", ["ICryptocurrency"], [("NETWORKS", (eDict [("mainnet", (eDict [("wif_prefix", (eConst (.int 0xe0))), ("address_prefix", (eConst (.int 0x32)))]))]))]⟩

/-- `bip38/cryptocurrencies.py:937-944` -/
def class_Megacoin_L937 : ClassText :=
  ⟨"Megacoin", ["ICryptocurrency"], [("NETWORKS", (eDict [("mainnet", (eDict [("wif_prefix", (eConst (.int 0xb2))), ("address_prefix", (eConst (.int 0x32)))]))]))]⟩

/-- `bip38/cryptocurrencies.py:947-954` -/
def class_Minexcoin_L947 : ClassText :=
  ⟨"Minexcoin", ["ICryptocurrency"], [("NETWORKS", (eDict [("mainnet", (eDict [("wif_prefix", (eConst (.int 0x80))), ("address_prefix", (eConst (.int 0x4b)))]))]))]⟩

/-- `bip38/cryptocurrencies.py:957-964` -/
def class_Monacoin_L957 : ClassText :=
  ⟨"Monacoin", ["ICryptocurrency"], [("NETWORKS", (eDict [("mainnet", (eDict [("wif_prefix", (eConst (.int 0xb0))), ("address_prefix", (eConst (.int 0x32)))]))]))]⟩

/-- `bip38/cryptocurrencies.py:967-974` -/
def class_Monk_L967 : ClassText :=
  ⟨"Monk", ["ICryptocurrency"], [("NETWORKS", (eDict [("mainnet", (eDict [("wif_prefix", (eConst (.int 0x37))), ("address_prefix", (eConst (.int 0x33)))]))]))]⟩

/-- `bip38/cryptocurrencies.py:977-984` -/
def class_Myriadcoin_L977 : ClassText :=
  ⟨"Myriadcoin", ["ICryptocurrency"], [("NETWORKS", (eDict [("mainnet", (eDict [("wif_prefix", (eConst (.int 0xb2))), ("address_prefix", (eConst (.int 0x32)))]))]))]⟩

/-- `bip38/cryptocurrencies.py:987-994` -/
def class_Namecoin_L987 : ClassText :=
  ⟨"Namecoin", ["ICryptocurrency"], [("NETWORKS", (eDict [("mainnet", (eDict [("wif_prefix", (eConst (.int 0x80))), ("address_prefix", (eConst (.int 0x34)))]))]))]⟩

/-- `bip38/cryptocurrencies.py:997-1004` -/
def class_Navcoin_L997 : ClassText :=
  ⟨"Navcoin", ["ICryptocurrency"], [("NETWORKS", (eDict [("mainnet", (eDict [("wif_prefix", (eConst (.int 0x96))), ("address_prefix", (eConst (.int 0x35)))]))]))]⟩

/-- `bip38/cryptocurrencies.py:1007-1014` -/
def class_Neblio_L1007 : ClassText :=
  ⟨"Neblio", ["ICryptocurrency"], [("NETWORKS", (eDict [("mainnet", (eDict [("wif_prefix", (eConst (.int 0xb5))), ("address_prefix", (eConst (.int 0x35)))]))]))]⟩

/-- `bip38/cryptocurrencies.py:1017-1024` -/
def class_Neoscoin_L1017 : ClassText :=
  ⟨"Neoscoin", ["ICryptocurrency"], [("NETWORKS", (eDict [("mainnet", (eDict [("wif_prefix", (eConst (.int 0xb1))), ("address_prefix", (eConst (.int 0x35)))]))]))]⟩

/-- `bip38/cryptocurrencies.py:1027-1034` -/
def class_Neurocoin_L1027 : ClassText :=
  ⟨"Neurocoin", ["ICryptocurrency"], [("NETWORKS", (eDict [("mainnet", (eDict [("wif_prefix", (eConst (.int 0xb5))), ("address_prefix", (eConst (.int 0x35)))]))]))]⟩

/-- `bip38/cryptocurrencies.py:1037-1044` -/
def class_NewYorkCoin_L1037 : ClassText :=
  ⟨"NewYorkCoin", ["ICryptocurrency"], [("NETWORKS", (eDict [("mainnet", (eDict [("wif_prefix", (eConst (.int 0xbc))), ("address_prefix", (eConst (.int 0x3c)))]))]))]⟩

/-- `bip38/cryptocurrencies.py:1047-1054` -/
def class_NIX_L1047 : ClassText :=
  ⟨"NIX", ["ICryptocurrency"], [("NETWORKS", (eDict [("mainnet", (eDict [("wif_prefix", (eConst (.int 0x80))), ("address_prefix", (eConst (.int 0x26)))]))]))]⟩

/-- `bip38/cryptocurrencies.py:1057-1064` -/
def class_Novacoin_L1057 : ClassText :=
  ⟨"Novacoin", ["ICryptocurrency"], [("NETWORKS", (eDict [("mainnet", (eDict [("wif_prefix", (eConst (.int 0x88))), ("address_prefix", (eConst (.int 0x8)))]))]))]⟩

/-- `bip38/cryptocurrencies.py:1067-1074` -/
def class_NuBits_L1067 : ClassText :=
  ⟨"NuBits", ["ICryptocurrency"], [("NETWORKS", (eDict [("mainnet", (eDict [("wif_prefix", (eConst (.int 0x96))), ("address_prefix", (eConst (.int 0x19)))]))]))]⟩

/-- `bip38/cryptocurrencies.py:1077-1084` -/
def class_NuShares_L1077 : ClassText :=
  ⟨"NuShares", ["ICryptocurrency"], [("NETWORKS", (eDict [("mainnet", (eDict [("wif_prefix", (eConst (.int 0x95))), ("address_prefix", (eConst (.int 0x3f)))]))]))]⟩

/-- `bip38/cryptocurrencies.py:1087-1094` -/
def class_OKCash_L1087 : ClassText :=
  ⟨"OKCash", ["ICryptocurrency"], [("NETWORKS", (eDict [("mainnet", (eDict [("wif_prefix", (eConst (.int 0x3))), ("address_prefix", (eConst (.int 0x37)))]))]))]⟩

/-- `bip38/cryptocurrencies.py:1097-1108` -/
def class_Omni_L1097 : ClassText :=
  ⟨"Omni", ["ICryptocurrency"], [("NETWORKS", (eDict [("mainnet", (eDict [("wif_prefix", (eConst (.int 0x80))), ("address_prefix", (eConst (.int 0x0)))])), ("testnet", (eDict [("wif_prefix", (eConst (.int 0xef))), ("address_prefix", (eConst (.int 0x6f)))]))]))]⟩

/-- `bip38/cryptocurrencies.py:1111-1118` -/
def class_Onix_L1111 : ClassText :=
  ⟨"Onix", ["ICryptocurrency"], [("NETWORKS", (eDict [("mainnet", (eDict [("wif_prefix", (eConst (.int 0xcb))), ("address_prefix", (eConst (.int 0x4b)))]))]))]⟩

/-- `bip38/cryptocurrencies.py:1121-1128` -/
def class_Particl_L1121 : ClassText :=
  ⟨"Particl", ["ICryptocurrency"], [("NETWORKS", (eDict [("mainnet", (eDict [("wif_prefix", (eConst (.int 0x6c))), ("address_prefix", (eConst (.int 0x38)))]))]))]⟩

/-- `bip38/cryptocurrencies.py:1131-1138` -/
def class_Peercoin_L1131 : ClassText :=
  ⟨"Peercoin", ["ICryptocurrency"], [("NETWORKS", (eDict [("mainnet", (eDict [("wif_prefix", (eConst (.int 0xb7))), ("address_prefix", (eConst (.int 0x37)))]))]))]⟩

/-- `bip38/cryptocurrencies.py:1141-1148` -/
def class_Pesobit_L1141 : ClassText :=
  ⟨"Pesobit", ["ICryptocurrency"], [("NETWORKS", (eDict [("mainnet", (eDict [("wif_prefix", (eConst (.int 0xb7))), ("address_prefix", (eConst (.int 0x37)))]))]))]⟩

/-- `bip38/cryptocurrencies.py:1151-1158` -/
def class_Phore_L1151 : ClassText :=
  ⟨"Phore", ["ICryptocurrency"], [("NETWORKS", (eDict [("mainnet", (eDict [("wif_prefix", (eConst (.int 0xd4))), ("address_prefix", (eConst (.int 0x37)))]))]))]⟩

/-- `bip38/cryptocurrencies.py:1161-1168` -/
def class_Pinkcoin_L1161 : ClassText :=
  ⟨"Pinkcoin", ["ICryptocurrency"], [("NETWORKS", (eDict [("mainnet", (eDict [("wif_prefix", (eConst (.int 0x83))), ("address_prefix", (eConst (.int 0x3)))]))]))]⟩

/-- `bip38/cryptocurrencies.py:1171-1182` -/
def class_Pivx_L1171 : ClassText :=
  ⟨"Pivx", ["ICryptocurrency"], [("NETWORKS", (eDict [("mainnet", (eDict [("wif_prefix", (eConst (.int 0xd4))), ("address_prefix", (eConst (.int 0x1e)))])), ("testnet", (eDict [("wif_prefix", (eConst (.int 0xef))), ("address_prefix", (eConst (.int 0x8b)))]))]))]⟩

/-- `bip38/cryptocurrencies.py:1185-1192` -/
def class_PoSWCoin_L1185 : ClassText :=
  ⟨"PoSWCoin", ["ICryptocurrency"], [("NETWORKS", (eDict [("mainnet", (eDict [("wif_prefix", (eConst (.int 0xb7))), ("address_prefix", (eConst (.int 0x37)))]))]))]⟩

/-- `bip38/cryptocurrencies.py:1195-1202` -/
def class_Potcoin_L1195 : ClassText :=
  ⟨"Potcoin", ["ICryptocurrency"], [("NETWORKS", (eDict [("mainnet", (eDict [("wif_prefix", (eConst (.int 0xb7))), ("address_prefix", (eConst (.int 0x37)))]))]))]⟩

/-- `bip38/cryptocurrencies.py:1205-1212` -/
def class_ProjectCoin_L1205 : ClassText :=
  ⟨"ProjectCoin", ["ICryptocurrency"], [("NETWORKS", (eDict [("mainnet", (eDict [("wif_prefix", (eConst (.int 0x75))), ("address_prefix", (eConst (.int 0x37)))]))]))]⟩

/-- `bip38/cryptocurrencies.py:1215-1222` -/
def class_Putincoin_L1215 : ClassText :=
  ⟨"Putincoin", ["ICryptocurrency"], [("NETWORKS", (eDict [("mainnet", (eDict [("wif_prefix", (eConst (.int 0xb7))), ("address_prefix", (eConst (.int 0x37)))]))]))]⟩

/-- `bip38/cryptocurrencies.py:1225-1236` -/
def class_Qtum_L1225 : ClassText :=
  ⟨"Qtum", ["ICryptocurrency"], [("NETWORKS", (eDict [("mainnet", (eDict [("wif_prefix", (eConst (.int 0x80))), ("address_prefix", (eConst (.int 0x3a)))])), ("testnet", (eDict [("wif_prefix", (eConst (.int 0xef))), ("address_prefix", (eConst (.int 0x78)))]))]))]⟩

/-- `bip38/cryptocurrencies.py:1239-1246` -/
def class_Rapids_L1239 : ClassText :=
  ⟨"Rapids", ["ICryptocurrency"], [("NETWORKS", (eDict [("mainnet", (eDict [("wif_prefix", (eConst (.int 0x2e))), ("address_prefix", (eConst (.int 0x3d)))]))]))]⟩

/-- `bip38/cryptocurrencies.py:1249-1260` -/
def class_Ravencoin_L1249 : ClassText :=
  ⟨"Ravencoin", ["ICryptocurrency"], [("NETWORKS", (eDict [("mainnet", (eDict [("wif_prefix", (eConst (.int 0x80))), ("address_prefix", (eConst (.int 0x3c)))])), ("testnet", (eDict [("wif_prefix", (eConst (.int 0x80))), ("address_prefix", (eConst (.int 0x6f)))]))]))]⟩

/-- `bip38/cryptocurrencies.py:1263-1270` -/
def class_Reddcoin_L1263 : ClassText :=
  ⟨"Reddcoin", ["ICryptocurrency"], [("NETWORKS", (eDict [("mainnet", (eDict [("wif_prefix", (eConst (.int 0xbd))), ("address_prefix", (eConst (.int 0x3d)))]))]))]⟩

/-- `bip38/cryptocurrencies.py:1273-1281` -/
def class_Ripple_L1273 : ClassText :=
  ⟨"Ripple", ["ICryptocurrency"], [("NETWORKS", (eDict [("mainnet", (eDict [("wif_prefix", (eConst (.int 0x80))), ("address_prefix", (eConst (.int 0x0)))]))])), ("ALPHABET", (eConst (.str "rpshnaf39wBUDNEGHJKLM4PQRST7VWXYZ2bcdeCg65jkm8oFqi1tuvAxyz".toList)))]⟩

/-- `bip38/cryptocurrencies.py:1284-1291` -/
def class_Ritocoin_L1284 : ClassText :=
  ⟨"Ritocoin", ["ICryptocurrency"], [("NETWORKS", (eDict [("mainnet", (eDict [("wif_prefix", (eConst (.int 0x8b))), ("address_prefix", (eConst (.int 0x19)))]))]))]⟩

/-- `bip38/cryptocurrencies.py:1294-1305` -/
def class_RSK_L1294 : ClassText :=
  ⟨"RSK", ["ICryptocurrency"], [("NETWORKS", (eDict [("mainnet", (eDict [("wif_prefix", (eConst (.int 0x80))), ("address_prefix", (eConst (.int 0x0)))])), ("testnet", (eDict [("wif_prefix", (eConst (.int 0xef))), ("address_prefix", (eConst (.int 0x6f)))]))]))]⟩

/-- `bip38/cryptocurrencies.py:1308-1315` -/
def class_Rubycoin_L1308 : ClassText :=
  ⟨"Rubycoin", ["ICryptocurrency"], [("NETWORKS", (eDict [("mainnet", (eDict [("wif_prefix", (eConst (.int 0xbc))), ("address_prefix", (eConst (.int 0x3c)))]))]))]⟩

/-- `bip38/cryptocurrencies.py:1318-1325` -/
def class_Safecoin_L1318 : ClassText :=
  ⟨"Safecoin", ["ICryptocurrency"], [("NETWORKS", (eDict [("mainnet", (eDict [("wif_prefix", (eConst (.int 0xbd))), ("address_prefix", (eConst (.int 0x3d)))]))]))]⟩

/-- `bip38/cryptocurrencies.py:1328-1335` -/
def class_Saluscoin_L1328 : ClassText :=
  ⟨"Saluscoin", ["ICryptocurrency"], [("NETWORKS", (eDict [("mainnet", (eDict [("wif_prefix", (eConst (.int 0xbf))), ("address_prefix", (eConst (.int 0x3f)))]))]))]⟩

/-- `bip38/cryptocurrencies.py:1338-1345` -/
def class_Scribe_L1338 : ClassText :=
  ⟨"Scribe", ["ICryptocurrency"], [("NETWORKS", (eDict [("mainnet", (eDict [("wif_prefix", (eConst (.int 0x6e))), ("address_prefix", (eConst (.int 0x3c)))]))]))]⟩

/-- `bip38/cryptocurrencies.py:1348-1359` -/
def class_ShadowCash_L1348 : ClassText :=
  ⟨"ShadowCash", ["ICryptocurrency"], [("NETWORKS", (eDict [("mainnet", (eDict [("wif_prefix", (eConst (.int 0xbf))), ("address_prefix", (eConst (.int 0x3f)))])), ("testnet", (eDict [("wif_prefix", (eConst (.int 0xff))), ("address_prefix", (eConst (.int 0x7f)))]))]))]⟩

/-- `bip38/cryptocurrencies.py:1362-1373` -/
def class_Slimcoin_L1362 : ClassText :=
  ⟨"Slimcoin", ["ICryptocurrency"], [("NETWORKS", (eDict [("mainnet", (eDict [("wif_prefix", (eConst (.int 0x46))), ("address_prefix", (eConst (.int 0x3f)))])), ("testnet", (eDict [("wif_prefix", (eConst (.int 0x57))), ("address_prefix", (eConst (.int 0x6f)))]))]))]⟩

/-- `bip38/cryptocurrencies.py:1376-1383` -/
def class_Smileycoin_L1376 : ClassText :=
  ⟨"Smileycoin", ["ICryptocurrency"], [("NETWORKS", (eDict [("mainnet", (eDict [("wif_prefix", (eConst (.int 0x5))), ("address_prefix", (eConst (.int 0x19)))]))]))]⟩

/-- `bip38/cryptocurrencies.py:1386-1393` -/
def class_Solarcoin_L1386 : ClassText :=
  ⟨"Solarcoin", ["ICryptocurrency"], [("NETWORKS", (eDict [("mainnet", (eDict [("wif_prefix", (eConst (.int 0x92))), ("address_prefix", (eConst (.int 0x12)))]))]))]⟩

/-- `bip38/cryptocurrencies.py:1396-1407` -/
def class_Stash_L1396 : ClassText :=
  ⟨"Stash", ["ICryptocurrency"], [("NETWORKS", (eDict [("mainnet", (eDict [("wif_prefix", (eConst (.int 0xcc))), ("address_prefix", (eConst (.int 0x4c)))])), ("testnet", (eDict [("wif_prefix", (eConst (.int 0xef))), ("address_prefix", (eConst (.int 0x8c)))]))]))]⟩

/-- `bip38/cryptocurrencies.py:1410-1421` -/
def class_Stratis_L1410 : ClassText :=
  ⟨"Stratis", ["ICryptocurrency"], [("NETWORKS", (eDict [("mainnet", (eDict [("wif_prefix", (eConst (.int 0xbf))), ("address_prefix", (eConst (.int 0x3f)))])), ("testnet", (eDict [("wif_prefix", (eConst (.int 0xbf))), ("address_prefix", (eConst (.int 0x41)))]))]))]⟩

/-- `bip38/cryptocurrencies.py:1424-1435` -/
def class_Sugarchain_L1424 : ClassText :=
  ⟨"Sugarchain", ["ICryptocurrency"], [("NETWORKS", (eDict [("mainnet", (eDict [("wif_prefix", (eConst (.int 0x80))), ("address_prefix", (eConst (.int 0x3f)))])), ("testnet", (eDict [("wif_prefix", (eConst (.int 0xef))), ("address_prefix", (eConst (.int 0x42)))]))]))]⟩

/-- `bip38/cryptocurrencies.py:1438-1445` -/
def class_Syscoin_L1438 : ClassText :=
  ⟨"Syscoin", ["ICryptocurrency"], [("NETWORKS", (eDict [("mainnet", (eDict [("wif_prefix", (eConst (.int 0x80))), ("address_prefix", (eConst (.int 0x3f)))]))]))]⟩

/-- `bip38/cryptocurrencies.py:1448-1455` -/
def class_ThoughtAI_L1448 : ClassText :=
  ⟨"ThoughtAI", ["ICryptocurrency"], [("NETWORKS", (eDict [("mainnet", (eDict [("wif_prefix", (eConst (.int 0x7b))), ("address_prefix", (eConst (.int 0x7)))]))]))]⟩

/-- `bip38/cryptocurrencies.py:1458-1465` -/
def class_TOACoin_L1458 : ClassText :=
  ⟨"TOACoin", ["ICryptocurrency"], [("NETWORKS", (eDict [("mainnet", (eDict [("wif_prefix", (eConst (.int 0xc1))), ("address_prefix", (eConst (.int 0x41)))]))]))]⟩

/-- `bip38/cryptocurrencies.py:1468-1479` -/
def class_TWINS_L1468 : ClassText :=
  ⟨"TWINS", ["ICryptocurrency"], [("NETWORKS", (eDict [("mainnet", (eDict [("wif_prefix", (eConst (.int 0x42))), ("address_prefix", (eConst (.int 0x49)))])), ("testnet", (eDict [("wif_prefix", (eConst (.int 0xed))), ("address_prefix", (eConst (.int 0x4c)))]))]))]⟩

/-- `bip38/cryptocurrencies.py:1482-1489` -/
def class_UltimateSecureCash_L1482 : ClassText :=
  ⟨"UltimateSecureCash", ["ICryptocurrency"], [("NETWORKS", (eDict [("mainnet", (eDict [("wif_prefix", (eConst (.int 0xbf))), ("address_prefix", (eConst (.int 0x44)))]))]))]⟩

/-- `bip38/cryptocurrencies.py:1492-1499` -/
def class_Unobtanium_L1492 : ClassText :=
  ⟨"Unobtanium", ["ICryptocurrency"], [("NETWORKS", (eDict [("mainnet", (eDict [("wif_prefix", (eConst (.int 0xe0))), ("address_prefix", (eConst (.int 0x82)))]))]))]⟩

/-- `bip38/cryptocurrencies.py:1502-1509` -/
def class_Vcash_L1502 : ClassText :=
  ⟨"Vcash", ["ICryptocurrency"], [("NETWORKS", (eDict [("mainnet", (eDict [("wif_prefix", (eConst (.int 0xc7))), ("address_prefix", (eConst (.int 0x47)))]))]))]⟩

/-- `bip38/cryptocurrencies.py:1512-1519` -/
def class_Verge_L1512 : ClassText :=
  ⟨"Verge", ["ICryptocurrency"], [("NETWORKS", (eDict [("mainnet", (eDict [("wif_prefix", (eConst (.int 0x9e))), ("address_prefix", (eConst (.int 0x1e)))]))]))]⟩

/-- `bip38/cryptocurrencies.py:1522-1529` -/
def class_Vertcoin_L1522 : ClassText :=
  ⟨"Vertcoin", ["ICryptocurrency"], [("NETWORKS", (eDict [("mainnet", (eDict [("wif_prefix", (eConst (.int 0x80))), ("address_prefix", (eConst (.int 0x47)))]))]))]⟩

/-- `bip38/cryptocurrencies.py:1532-1543` -/
def class_Viacoin_L1532 : ClassText :=
  ⟨"Viacoin", ["ICryptocurrency"], [("NETWORKS", (eDict [("mainnet", (eDict [("wif_prefix", (eConst (.int 0xc7))), ("address_prefix", (eConst (.int 0x47)))])), ("testnet", (eDict [("wif_prefix", (eConst (.int 0xff))), ("address_prefix", (eConst (.int 0x7f)))]))]))]⟩

/-- `bip38/cryptocurrencies.py:1546-1553` -/
def class_Vivo_L1546 : ClassText :=
  ⟨"Vivo", ["ICryptocurrency"], [("NETWORKS", (eDict [("mainnet", (eDict [("wif_prefix", (eConst (.int 0xc6))), ("address_prefix", (eConst (.int 0x46)))]))]))]⟩

/-- `bip38/cryptocurrencies.py:1556-1563` -/
def class_Voxels_L1556 : ClassText :=
  ⟨"Voxels", ["ICryptocurrency"], [("NETWORKS", (eDict [("mainnet", (eDict [("wif_prefix", (eConst (.int 0xc6))), ("address_prefix", (eConst (.int 0x46)))]))]))]⟩

/-- `bip38/cryptocurrencies.py:1566-1573` -/
def class_VirtualCash_L1566 : ClassText :=
  ⟨"VirtualCash", ["ICryptocurrency"], [("NETWORKS", (eDict [("mainnet", (eDict [("wif_prefix", (eConst (.int 0xc7))), ("address_prefix", (eConst (.int 0x47)))]))]))]⟩

/-- `bip38/cryptocurrencies.py:1576-1583` -/
def class_Wagerr_L1576 : ClassText :=
  ⟨"Wagerr", ["ICryptocurrency"], [("NETWORKS", (eDict [("mainnet", (eDict [("wif_prefix", (eConst (.int 0xc7))), ("address_prefix", (eConst (.int 0x49)))]))]))]⟩

/-- `bip38/cryptocurrencies.py:1586-1593` -/
def class_Whitecoin_L1586 : ClassText :=
  ⟨"Whitecoin", ["ICryptocurrency"], [("NETWORKS", (eDict [("mainnet", (eDict [("wif_prefix", (eConst (.int 0xc9))), ("address_prefix", (eConst (.int 0x49)))]))]))]⟩

/-- `bip38/cryptocurrencies.py:1596-1603` -/
def class_Wincoin_L1596 : ClassText :=
  ⟨"Wincoin", ["ICryptocurrency"], [("NETWORKS", (eDict [("mainnet", (eDict [("wif_prefix", (eConst (.int 0xc9))), ("address_prefix", (eConst (.int 0x49)))]))]))]⟩

/-- `bip38/cryptocurrencies.py:1606-1613` -/
def class_XUEZ_L1606 : ClassText :=
  ⟨"XUEZ", ["ICryptocurrency"], [("NETWORKS", (eDict [("mainnet", (eDict [("wif_prefix", (eConst (.int 0xd4))), ("address_prefix", (eConst (.int 0x4b)))]))]))]⟩

/-- `bip38/cryptocurrencies.py:1616-1623` -/
def class_Ycash_L1616 : ClassText :=
  ⟨"Ycash", ["ICryptocurrency"], [("NETWORKS", (eDict [("mainnet", (eDict [("wif_prefix", (eConst (.int 0x80))), ("address_prefix", (eConst (.int 0x1c28)))]))]))]⟩

/-- `bip38/cryptocurrencies.py:1626-1637` -/
def class_Zcash_L1626 : ClassText :=
  ⟨"Zcash", ["ICryptocurrency"], [("NETWORKS", (eDict [("mainnet", (eDict [("wif_prefix", (eConst (.int 0x80))), ("address_prefix", (eConst (.int 0x1cb8)))])), ("testnet", (eDict [("wif_prefix", (eConst (.int 0xef))), ("address_prefix", (eConst (.int 0x1d25)))]))]))]⟩

/-- `bip38/cryptocurrencies.py:1640-1647` -/
def class_ZClassic_L1640 : ClassText :=
  ⟨"ZClassic", ["ICryptocurrency"], [("NETWORKS", (eDict [("mainnet", (eDict [("wif_prefix", (eConst (.int 0x80))), ("address_prefix", (eConst (.int 0x1cb8)))]))]))]⟩

/-- `bip38/cryptocurrencies.py:1650-1657` -/
def class_Zetacoin_L1650 : ClassText :=
  ⟨"Zetacoin", ["ICryptocurrency"], [("NETWORKS", (eDict [("mainnet", (eDict [("wif_prefix", (eConst (.int 0xe0))), ("address_prefix", (eConst (.int 0x50)))]))]))]⟩

/-- `bip38/cryptocurrencies.py:1660-1667` -/
def class_ZooBC_L1660 : ClassText :=
  ⟨"ZooBC", ["ICryptocurrency"], [("NETWORKS", (eDict [("mainnet", (eDict [("wif_prefix", (eConst (.int 0x80))), ("address_prefix", (eConst (.int 0x0)))]))]))]⟩

/-- The class statements of the module, in order. -/
def cryptocurrencies : List ClassText :=
  [class_ICryptocurrency_L12, class_Adcoin_L18, class_Anon_L28, class_Argoneum_L38,
   class_Artax_L48, class_Aryacoin_L58, class_Asiacoin_L68, class_Auroracoin_L78,
   class_Avian_L88, class_Axe_L98, class_Bata_L108, class_BeetleCoin_L118,
   class_BelaCoin_L128, class_BitCloud_L138, class_Bitcoin_L148, class_BitcoinAtom_L167,
   class_BitcoinGold_L177, class_BitcoinGreen_L187, class_BitcoinPlus_L197, class_BitcoinPrivate_L207,
   class_BitcoinSV_L221, class_BitcoinZ_L231, class_Bitcore_L241, class_BitSend_L251,
   class_Blackcoin_L261, class_Blocknode_L271, class_BlockStamp_L285, class_Bolivarcoin_L295,
   class_BritCoin_L305, class_CanadaeCoin_L315, class_Cannacoin_L325, class_Clams_L335,
   class_ClubCoin_L345, class_Compcoin_L355, class_CPUChain_L365, class_CranePay_L375,
   class_Crave_L385, class_Dash_L395, class_DeepOnion_L409, class_Defcoin_L419,
   class_Denarius_L429, class_Diamond_L439, class_DigiByte_L449, class_Digitalcoin_L459,
   class_Divi_L469, class_Dogecoin_L483, class_Ecoin_L497, class_EDRCoin_L507,
   class_eGulden_L517, class_Einsteinium_L527, class_Elastos_L537, class_Energi_L547,
   class_EuropeCoin_L557, class_Evrmore_L567, class_ExclusiveCoin_L581, class_Feathercoin_L591,
   class_Firo_L601, class_Firstcoin_L611, class_FIX_L621, class_Flashcoin_L635,
   class_Flux_L645, class_Foxdcoin_L655, class_FujiCoin_L669, class_GameCredits_L679,
   class_GCRCoin_L689, class_GoByte_L699, class_Gridcoin_L709, class_GroestlCoin_L719,
   class_Gulden_L733, class_Helleniccoin_L743, class_Hempcoin_L753, class_Horizen_L763,
   class_Hush_L773, class_InsaneCoin_L783, class_InternetOfPeople_L793, class_IXCoin_L803,
   class_Jumbucks_L813, class_Kobocoin_L823, class_Komodo_L833, class_Landcoin_L843,
   class_LBRYCredits_L853, class_Linx_L863, class_Litecoin_L873, class_LitecoinCash_L887,
   class_LitecoinZ_L897, class_Lkrcoin_L907, class_Lynx_L917, class_Mazacoin_L927,
   class_Megacoin_L937, class_Minexcoin_L947, class_Monacoin_L957, class_Monk_L967,
   class_Myriadcoin_L977, class_Namecoin_L987, class_Navcoin_L997, class_Neblio_L1007,
   class_Neoscoin_L1017, class_Neurocoin_L1027, class_NewYorkCoin_L1037, class_NIX_L1047,
   class_Novacoin_L1057, class_NuBits_L1067, class_NuShares_L1077, class_OKCash_L1087,
   class_Omni_L1097, class_Onix_L1111, class_Particl_L1121, class_Peercoin_L1131,
   class_Pesobit_L1141, class_Phore_L1151, class_Pinkcoin_L1161, class_Pivx_L1171,
   class_PoSWCoin_L1185, class_Potcoin_L1195, class_ProjectCoin_L1205, class_Putincoin_L1215,
   class_Qtum_L1225, class_Rapids_L1239, class_Ravencoin_L1249, class_Reddcoin_L1263,
   class_Ripple_L1273, class_Ritocoin_L1284, class_RSK_L1294, class_Rubycoin_L1308,
   class_Safecoin_L1318, class_Saluscoin_L1328, class_Scribe_L1338, class_ShadowCash_L1348,
   class_Slimcoin_L1362, class_Smileycoin_L1376, class_Solarcoin_L1386, class_Stash_L1396,
   class_Stratis_L1410, class_Sugarchain_L1424, class_Syscoin_L1438, class_ThoughtAI_L1448,
   class_TOACoin_L1458, class_TWINS_L1468, class_UltimateSecureCash_L1482, class_Unobtanium_L1492,
   class_Vcash_L1502, class_Verge_L1512, class_Vertcoin_L1522, class_Viacoin_L1532,
   class_Vivo_L1546, class_Voxels_L1556, class_VirtualCash_L1566, class_Wagerr_L1576,
   class_Whitecoin_L1586, class_Wincoin_L1596, class_XUEZ_L1606, class_Ycash_L1616,
   class_Zcash_L1626, class_ZClassic_L1640, class_Zetacoin_L1650, class_ZooBC_L1660]

end Bip38.Src
