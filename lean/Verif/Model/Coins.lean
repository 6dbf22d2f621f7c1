import Verif.Model.Base58
/-!
# Model of `bip38/cryptocurrencies.py` (generated by `tools/gen_coins.py`, do not edit)
-/
namespace Bip38

/-- One entry of a `NETWORKS` dictionary (`bip38/cryptocurrencies.py:14`). -/
structure Net where
  wifPrefix : Nat
  addressPrefix : Nat
  deriving DecidableEq, Repr

/-- A subclass of `ICryptocurrency` (`bip38/cryptocurrencies.py:12-15`): its `NETWORKS` dictionary in insertion
order and its optional `ALPHABET`. -/
structure Coin where
  name : String
  networks : List (String × Net)
  alphabet : Option Str
  deriving DecidableEq, Repr

/-- `list(cryptocurrency.NETWORKS.keys())`. -/
def Coin.networkNames (c : Coin) : List String := c.networks.map (·.1)

/-- `cryptocurrency.NETWORKS[network]`; `none` is Python's `KeyError`. -/
def Coin.net? (c : Coin) (network : String) : Option Net := c.networks.lookup network

namespace Coins

/-- `bip38/cryptocurrencies.py:18-25` -/
def Adcoin : Coin := ⟨"Adcoin", [("mainnet", ⟨0xb0, 0x17⟩)], none⟩

/-- `bip38/cryptocurrencies.py:28-35` -/
def Anon : Coin := ⟨"Anon", [("mainnet", ⟨0x80, 0x582⟩)], none⟩

/-- `bip38/cryptocurrencies.py:38-45` -/
def Argoneum : Coin := ⟨"Argoneum", [("mainnet", ⟨0xbf, 0x32⟩)], none⟩

/-- `bip38/cryptocurrencies.py:48-55` -/
def Artax : Coin := ⟨"Artax", [("mainnet", ⟨0x97, 0x17⟩)], none⟩

/-- `bip38/cryptocurrencies.py:58-65` -/
def Aryacoin : Coin := ⟨"Aryacoin", [("mainnet", ⟨0x97, 0x17⟩)], none⟩

/-- `bip38/cryptocurrencies.py:68-75` -/
def Asiacoin : Coin := ⟨"Asiacoin", [("mainnet", ⟨0x97, 0x17⟩)], none⟩

/-- `bip38/cryptocurrencies.py:78-85` -/
def Auroracoin : Coin := ⟨"Auroracoin", [("mainnet", ⟨0x97, 0x17⟩)], none⟩

/-- `bip38/cryptocurrencies.py:88-95` -/
def Avian : Coin := ⟨"Avian", [("mainnet", ⟨0x80, 0x3c⟩)], none⟩

/-- `bip38/cryptocurrencies.py:98-105` -/
def Axe : Coin := ⟨"Axe", [("mainnet", ⟨0xcc, 0x37⟩)], none⟩

/-- `bip38/cryptocurrencies.py:108-115` -/
def Bata : Coin := ⟨"Bata", [("mainnet", ⟨0xa4, 0x19⟩)], none⟩

/-- `bip38/cryptocurrencies.py:118-125` -/
def BeetleCoin : Coin := ⟨"BeetleCoin", [("mainnet", ⟨0x99, 0x1a⟩)], none⟩

/-- `bip38/cryptocurrencies.py:128-135` -/
def BelaCoin : Coin := ⟨"BelaCoin", [("mainnet", ⟨0x99, 0x19⟩)], none⟩

/-- `bip38/cryptocurrencies.py:138-145` -/
def BitCloud : Coin := ⟨"BitCloud", [("mainnet", ⟨0x99, 0x19⟩)], none⟩

/-- `bip38/cryptocurrencies.py:148-164` -/
def Bitcoin : Coin := ⟨"Bitcoin", [("mainnet", ⟨0x80, 0x0⟩), ("testnet", ⟨0xef, 0x6f⟩), ("regtest", ⟨0xef, 0x6f⟩)], (some "123456789ABCDEFGHJKLMNPQRSTUVWXYZabcdefghijkmnopqrstuvwxyz".toList)⟩

/-- `bip38/cryptocurrencies.py:167-174` -/
def BitcoinAtom : Coin := ⟨"BitcoinAtom", [("mainnet", ⟨0x80, 0x17⟩)], none⟩

/-- `bip38/cryptocurrencies.py:177-184` -/
def BitcoinGold : Coin := ⟨"BitcoinGold", [("mainnet", ⟨0x80, 0x26⟩)], none⟩

/-- `bip38/cryptocurrencies.py:187-194` -/
def BitcoinGreen : Coin := ⟨"BitcoinGreen", [("mainnet", ⟨0x2e, 0x26⟩)], none⟩

/-- `bip38/cryptocurrencies.py:197-204` -/
def BitcoinPlus : Coin := ⟨"BitcoinPlus", [("mainnet", ⟨0x99, 0x19⟩)], none⟩

/-- `bip38/cryptocurrencies.py:207-218` -/
def BitcoinPrivate : Coin := ⟨"BitcoinPrivate", [("mainnet", ⟨0x80, 0x1325⟩), ("testnet", ⟨0xef, 0x1957⟩)], none⟩

/-- `bip38/cryptocurrencies.py:221-228` -/
def BitcoinSV : Coin := ⟨"BitcoinSV", [("mainnet", ⟨0x80, 0x0⟩)], none⟩

/-- `bip38/cryptocurrencies.py:231-238` -/
def BitcoinZ : Coin := ⟨"BitcoinZ", [("mainnet", ⟨0x80, 0x1cb8⟩)], none⟩

/-- `bip38/cryptocurrencies.py:241-248` -/
def Bitcore : Coin := ⟨"Bitcore", [("mainnet", ⟨0x80, 0x3⟩)], none⟩

/-- `bip38/cryptocurrencies.py:251-258` -/
def BitSend : Coin := ⟨"BitSend", [("mainnet", ⟨0xcc, 0x66⟩)], none⟩

/-- `bip38/cryptocurrencies.py:261-268` -/
def Blackcoin : Coin := ⟨"Blackcoin", [("mainnet", ⟨0x99, 0x19⟩)], none⟩

/-- `bip38/cryptocurrencies.py:271-282` -/
def Blocknode : Coin := ⟨"Blocknode", [("mainnet", ⟨0x4b, 0x19⟩), ("testnet", ⟨0x89, 0x55⟩)], none⟩

/-- `bip38/cryptocurrencies.py:285-292` -/
def BlockStamp : Coin := ⟨"BlockStamp", [("mainnet", ⟨0x80, 0x0⟩)], none⟩

/-- `bip38/cryptocurrencies.py:295-302` -/
def Bolivarcoin : Coin := ⟨"Bolivarcoin", [("mainnet", ⟨0xd5, 0x55⟩)], none⟩

/-- `bip38/cryptocurrencies.py:305-312` -/
def BritCoin : Coin := ⟨"BritCoin", [("mainnet", ⟨0x99, 0x19⟩)], none⟩

/-- `bip38/cryptocurrencies.py:315-322` -/
def CanadaeCoin : Coin := ⟨"CanadaeCoin", [("mainnet", ⟨0x9c, 0x1c⟩)], none⟩

/-- `bip38/cryptocurrencies.py:325-332` -/
def Cannacoin : Coin := ⟨"Cannacoin", [("mainnet", ⟨0x9c, 0x1c⟩)], none⟩

/-- `bip38/cryptocurrencies.py:335-342` -/
def Clams : Coin := ⟨"Clams", [("mainnet", ⟨0x85, 0x89⟩)], none⟩

/-- `bip38/cryptocurrencies.py:345-352` -/
def ClubCoin : Coin := ⟨"ClubCoin", [("mainnet", ⟨0x99, 0x1c⟩)], none⟩

/-- `bip38/cryptocurrencies.py:355-362` -/
def Compcoin : Coin := ⟨"Compcoin", [("mainnet", ⟨0x9c, 0x1c⟩)], none⟩

/-- `bip38/cryptocurrencies.py:365-372` -/
def CPUChain : Coin := ⟨"CPUChain", [("mainnet", ⟨0x80, 0x1c⟩)], none⟩

/-- `bip38/cryptocurrencies.py:375-382` -/
def CranePay : Coin := ⟨"CranePay", [("mainnet", ⟨0x7b, 0x1c⟩)], none⟩

/-- `bip38/cryptocurrencies.py:385-392` -/
def Crave : Coin := ⟨"Crave", [("mainnet", ⟨0x99, 0x46⟩)], none⟩

/-- `bip38/cryptocurrencies.py:395-406` -/
def Dash : Coin := ⟨"Dash", [("mainnet", ⟨0xcc, 0x4c⟩), ("testnet", ⟨0xef, 0x8c⟩)], none⟩

/-- `bip38/cryptocurrencies.py:409-416` -/
def DeepOnion : Coin := ⟨"DeepOnion", [("mainnet", ⟨0x9f, 0x1f⟩)], none⟩

/-- `bip38/cryptocurrencies.py:419-426` -/
def Defcoin : Coin := ⟨"Defcoin", [("mainnet", ⟨0x9e, 0x1e⟩)], none⟩

/-- `bip38/cryptocurrencies.py:429-436` -/
def Denarius : Coin := ⟨"Denarius", [("mainnet", ⟨0x9e, 0x1e⟩)], none⟩

/-- `bip38/cryptocurrencies.py:439-446` -/
def Diamond : Coin := ⟨"Diamond", [("mainnet", ⟨0xda, 0x5a⟩)], none⟩

/-- `bip38/cryptocurrencies.py:449-456` -/
def DigiByte : Coin := ⟨"DigiByte", [("mainnet", ⟨0x80, 0x1e⟩)], none⟩

/-- `bip38/cryptocurrencies.py:459-466` -/
def Digitalcoin : Coin := ⟨"Digitalcoin", [("mainnet", ⟨0x9e, 0x1e⟩)], none⟩

/-- `bip38/cryptocurrencies.py:469-480` -/
def Divi : Coin := ⟨"Divi", [("mainnet", ⟨0xd4, 0x1e⟩), ("testnet", ⟨0xd4, 0x1e⟩)], none⟩

/-- `bip38/cryptocurrencies.py:483-494` -/
def Dogecoin : Coin := ⟨"Dogecoin", [("mainnet", ⟨0xf1, 0x1e⟩), ("testnet", ⟨0xf1, 0x71⟩)], none⟩

/-- `bip38/cryptocurrencies.py:497-504` -/
def Ecoin : Coin := ⟨"Ecoin", [("mainnet", ⟨0xdc, 0x5c⟩)], none⟩

/-- `bip38/cryptocurrencies.py:507-514` -/
def EDRCoin : Coin := ⟨"EDRCoin", [("mainnet", ⟨0xdd, 0x5d⟩)], none⟩

/-- `bip38/cryptocurrencies.py:517-524` -/
def eGulden : Coin := ⟨"eGulden", [("mainnet", ⟨0xb0, 0x30⟩)], none⟩

/-- `bip38/cryptocurrencies.py:527-534` -/
def Einsteinium : Coin := ⟨"Einsteinium", [("mainnet", ⟨0xa1, 0x21⟩)], none⟩

/-- `bip38/cryptocurrencies.py:537-544` -/
def Elastos : Coin := ⟨"Elastos", [("mainnet", ⟨0x80, 0x21⟩)], none⟩

/-- `bip38/cryptocurrencies.py:547-554` -/
def Energi : Coin := ⟨"Energi", [("mainnet", ⟨0x6a, 0x21⟩)], none⟩

/-- `bip38/cryptocurrencies.py:557-564` -/
def EuropeCoin : Coin := ⟨"EuropeCoin", [("mainnet", ⟨0xa8, 0x21⟩)], none⟩

/-- `bip38/cryptocurrencies.py:567-578` -/
def Evrmore : Coin := ⟨"Evrmore", [("mainnet", ⟨0x80, 0x21⟩), ("testnet", ⟨0xef, 0x6f⟩)], none⟩

/-- `bip38/cryptocurrencies.py:581-588` -/
def ExclusiveCoin : Coin := ⟨"ExclusiveCoin", [("mainnet", ⟨0xa1, 0x21⟩)], none⟩

/-- `bip38/cryptocurrencies.py:591-598` -/
def Feathercoin : Coin := ⟨"Feathercoin", [("mainnet", ⟨0x8e, 0xe⟩)], none⟩

/-- `bip38/cryptocurrencies.py:601-608` -/
def Firo : Coin := ⟨"Firo", [("mainnet", ⟨0xd2, 0x52⟩)], none⟩

/-- `bip38/cryptocurrencies.py:611-618` -/
def Firstcoin : Coin := ⟨"Firstcoin", [("mainnet", ⟨0xa3, 0x23⟩)], none⟩

/-- `bip38/cryptocurrencies.py:621-632` -/
def FIX : Coin := ⟨"FIX", [("mainnet", ⟨0x3c, 0x23⟩), ("testnet", ⟨0xed, 0x4c⟩)], none⟩

/-- `bip38/cryptocurrencies.py:635-642` -/
def Flashcoin : Coin := ⟨"Flashcoin", [("mainnet", ⟨0xc4, 0x44⟩)], none⟩

/-- `bip38/cryptocurrencies.py:645-652` -/
def Flux : Coin := ⟨"Flux", [("mainnet", ⟨0x80, 0x1cb8⟩)], none⟩

/-- `bip38/cryptocurrencies.py:655-666` -/
def Foxdcoin : Coin := ⟨"Foxdcoin", [("mainnet", ⟨0x80, 0x23⟩), ("testnet", ⟨0xef, 0x5f⟩)], none⟩

/-- `bip38/cryptocurrencies.py:669-676` -/
def FujiCoin : Coin := ⟨"FujiCoin", [("mainnet", ⟨0xa4, 0x24⟩)], none⟩

/-- `bip38/cryptocurrencies.py:679-686` -/
def GameCredits : Coin := ⟨"GameCredits", [("mainnet", ⟨0xa6, 0x26⟩)], none⟩

/-- `bip38/cryptocurrencies.py:689-696` -/
def GCRCoin : Coin := ⟨"GCRCoin", [("mainnet", ⟨0x9a, 0x26⟩)], none⟩

/-- `bip38/cryptocurrencies.py:699-706` -/
def GoByte : Coin := ⟨"GoByte", [("mainnet", ⟨0xc6, 0x26⟩)], none⟩

/-- `bip38/cryptocurrencies.py:709-716` -/
def Gridcoin : Coin := ⟨"Gridcoin", [("mainnet", ⟨0xbe, 0x3e⟩)], none⟩

/-- `bip38/cryptocurrencies.py:719-730` -/
def GroestlCoin : Coin := ⟨"GroestlCoin", [("mainnet", ⟨0x80, 0x24⟩), ("testnet", ⟨0xef, 0x6f⟩)], none⟩

/-- `bip38/cryptocurrencies.py:733-740` -/
def Gulden : Coin := ⟨"Gulden", [("mainnet", ⟨0x62, 0x26⟩)], none⟩

/-- `bip38/cryptocurrencies.py:743-750` -/
def Helleniccoin : Coin := ⟨"Helleniccoin", [("mainnet", ⟨0xb0, 0x30⟩)], none⟩

/-- `bip38/cryptocurrencies.py:753-760` -/
def Hempcoin : Coin := ⟨"Hempcoin", [("mainnet", ⟨0xa8, 0x28⟩)], none⟩

/-- `bip38/cryptocurrencies.py:763-770` -/
def Horizen : Coin := ⟨"Horizen", [("mainnet", ⟨0x80, 0x2089⟩)], none⟩

/-- `bip38/cryptocurrencies.py:773-780` -/
def Hush : Coin := ⟨"Hush", [("mainnet", ⟨0x80, 0x1cb8⟩)], none⟩

/-- `bip38/cryptocurrencies.py:783-790` -/
def InsaneCoin : Coin := ⟨"InsaneCoin", [("mainnet", ⟨0x37, 0x66⟩)], none⟩

/-- `bip38/cryptocurrencies.py:793-800` -/
def InternetOfPeople : Coin := ⟨"InternetOfPeople", [("mainnet", ⟨0x31, 0x75⟩)], none⟩

/-- `bip38/cryptocurrencies.py:803-810` -/
def IXCoin : Coin := ⟨"IXCoin", [("mainnet", ⟨0x80, 0x8a⟩)], none⟩

/-- `bip38/cryptocurrencies.py:813-820` -/
def Jumbucks : Coin := ⟨"Jumbucks", [("mainnet", ⟨0xab, 0x2b⟩)], none⟩

/-- `bip38/cryptocurrencies.py:823-830` -/
def Kobocoin : Coin := ⟨"Kobocoin", [("mainnet", ⟨0xa3, 0x23⟩)], none⟩

/-- `bip38/cryptocurrencies.py:833-840` -/
def Komodo : Coin := ⟨"Komodo", [("mainnet", ⟨0xbc, 0x3c⟩)], none⟩

/-- `bip38/cryptocurrencies.py:843-850` -/
def Landcoin : Coin := ⟨"Landcoin", [("mainnet", ⟨0xb0, 0x30⟩)], none⟩

/-- `bip38/cryptocurrencies.py:853-860` -/
def LBRYCredits : Coin := ⟨"LBRYCredits", [("mainnet", ⟨0x1c, 0x55⟩)], none⟩

/-- `bip38/cryptocurrencies.py:863-870` -/
def Linx : Coin := ⟨"Linx", [("mainnet", ⟨0xcb, 0x4b⟩)], none⟩

/-- `bip38/cryptocurrencies.py:873-884` -/
def Litecoin : Coin := ⟨"Litecoin", [("mainnet", ⟨0xb0, 0x30⟩), ("testnet", ⟨0xef, 0x6f⟩)], none⟩

/-- `bip38/cryptocurrencies.py:887-894` -/
def LitecoinCash : Coin := ⟨"LitecoinCash", [("mainnet", ⟨0xb0, 0x1c⟩)], none⟩

/-- `bip38/cryptocurrencies.py:897-904` -/
def LitecoinZ : Coin := ⟨"LitecoinZ", [("mainnet", ⟨0x80, 0xab3⟩)], none⟩

/-- `bip38/cryptocurrencies.py:907-914` -/
def Lkrcoin : Coin := ⟨"Lkrcoin", [("mainnet", ⟨0xb0, 0x30⟩)], none⟩

/-- `bip38/cryptocurrencies.py:917-924` -/
def Lynx : Coin := ⟨"Lynx", [("mainnet", ⟨0xad, 0x2d⟩)], none⟩

/-- `bip38/cryptocurrencies.py:927-934` -/
def Mazacoin : Coin := ⟨"Mazacoin", [("mainnet", ⟨0xe0, 0x32⟩)], none⟩

/-- `bip38/cryptocurrencies.py:937-944` -/
def Megacoin : Coin := ⟨"Megacoin", [("mainnet", ⟨0xb2, 0x32⟩)], none⟩

/-- `bip38/cryptocurrencies.py:947-954` -/
def Minexcoin : Coin := ⟨"Minexcoin", [("mainnet", ⟨0x80, 0x4b⟩)], none⟩

/-- `bip38/cryptocurrencies.py:957-964` -/
def Monacoin : Coin := ⟨"Monacoin", [("mainnet", ⟨0xb0, 0x32⟩)], none⟩

/-- `bip38/cryptocurrencies.py:967-974` -/
def Monk : Coin := ⟨"Monk", [("mainnet", ⟨0x37, 0x33⟩)], none⟩

/-- `bip38/cryptocurrencies.py:977-984` -/
def Myriadcoin : Coin := ⟨"Myriadcoin", [("mainnet", ⟨0xb2, 0x32⟩)], none⟩

/-- `bip38/cryptocurrencies.py:987-994` -/
def Namecoin : Coin := ⟨"Namecoin", [("mainnet", ⟨0x80, 0x34⟩)], none⟩

/-- `bip38/cryptocurrencies.py:997-1004` -/
def Navcoin : Coin := ⟨"Navcoin", [("mainnet", ⟨0x96, 0x35⟩)], none⟩

/-- `bip38/cryptocurrencies.py:1007-1014` -/
def Neblio : Coin := ⟨"Neblio", [("mainnet", ⟨0xb5, 0x35⟩)], none⟩

/-- `bip38/cryptocurrencies.py:1017-1024` -/
def Neoscoin : Coin := ⟨"Neoscoin", [("mainnet", ⟨0xb1, 0x35⟩)], none⟩

/-- `bip38/cryptocurrencies.py:1027-1034` -/
def Neurocoin : Coin := ⟨"Neurocoin", [("mainnet", ⟨0xb5, 0x35⟩)], none⟩

/-- `bip38/cryptocurrencies.py:1037-1044` -/
def NewYorkCoin : Coin := ⟨"NewYorkCoin", [("mainnet", ⟨0xbc, 0x3c⟩)], none⟩

/-- `bip38/cryptocurrencies.py:1047-1054` -/
def NIX : Coin := ⟨"NIX", [("mainnet", ⟨0x80, 0x26⟩)], none⟩

/-- `bip38/cryptocurrencies.py:1057-1064` -/
def Novacoin : Coin := ⟨"Novacoin", [("mainnet", ⟨0x88, 0x8⟩)], none⟩

/-- `bip38/cryptocurrencies.py:1067-1074` -/
def NuBits : Coin := ⟨"NuBits", [("mainnet", ⟨0x96, 0x19⟩)], none⟩

/-- `bip38/cryptocurrencies.py:1077-1084` -/
def NuShares : Coin := ⟨"NuShares", [("mainnet", ⟨0x95, 0x3f⟩)], none⟩

/-- `bip38/cryptocurrencies.py:1087-1094` -/
def OKCash : Coin := ⟨"OKCash", [("mainnet", ⟨0x3, 0x37⟩)], none⟩

/-- `bip38/cryptocurrencies.py:1097-1108` -/
def Omni : Coin := ⟨"Omni", [("mainnet", ⟨0x80, 0x0⟩), ("testnet", ⟨0xef, 0x6f⟩)], none⟩

/-- `bip38/cryptocurrencies.py:1111-1118` -/
def Onix : Coin := ⟨"Onix", [("mainnet", ⟨0xcb, 0x4b⟩)], none⟩

/-- `bip38/cryptocurrencies.py:1121-1128` -/
def Particl : Coin := ⟨"Particl", [("mainnet", ⟨0x6c, 0x38⟩)], none⟩

/-- `bip38/cryptocurrencies.py:1131-1138` -/
def Peercoin : Coin := ⟨"Peercoin", [("mainnet", ⟨0xb7, 0x37⟩)], none⟩

/-- `bip38/cryptocurrencies.py:1141-1148` -/
def Pesobit : Coin := ⟨"Pesobit", [("mainnet", ⟨0xb7, 0x37⟩)], none⟩

/-- `bip38/cryptocurrencies.py:1151-1158` -/
def Phore : Coin := ⟨"Phore", [("mainnet", ⟨0xd4, 0x37⟩)], none⟩

/-- `bip38/cryptocurrencies.py:1161-1168` -/
def Pinkcoin : Coin := ⟨"Pinkcoin", [("mainnet", ⟨0x83, 0x3⟩)], none⟩

/-- `bip38/cryptocurrencies.py:1171-1182` -/
def Pivx : Coin := ⟨"Pivx", [("mainnet", ⟨0xd4, 0x1e⟩), ("testnet", ⟨0xef, 0x8b⟩)], none⟩

/-- `bip38/cryptocurrencies.py:1185-1192` -/
def PoSWCoin : Coin := ⟨"PoSWCoin", [("mainnet", ⟨0xb7, 0x37⟩)], none⟩

/-- `bip38/cryptocurrencies.py:1195-1202` -/
def Potcoin : Coin := ⟨"Potcoin", [("mainnet", ⟨0xb7, 0x37⟩)], none⟩

/-- `bip38/cryptocurrencies.py:1205-1212` -/
def ProjectCoin : Coin := ⟨"ProjectCoin", [("mainnet", ⟨0x75, 0x37⟩)], none⟩

/-- `bip38/cryptocurrencies.py:1215-1222` -/
def Putincoin : Coin := ⟨"Putincoin", [("mainnet", ⟨0xb7, 0x37⟩)], none⟩

/-- `bip38/cryptocurrencies.py:1225-1236` -/
def Qtum : Coin := ⟨"Qtum", [("mainnet", ⟨0x80, 0x3a⟩), ("testnet", ⟨0xef, 0x78⟩)], none⟩

/-- `bip38/cryptocurrencies.py:1239-1246` -/
def Rapids : Coin := ⟨"Rapids", [("mainnet", ⟨0x2e, 0x3d⟩)], none⟩

/-- `bip38/cryptocurrencies.py:1249-1260` -/
def Ravencoin : Coin := ⟨"Ravencoin", [("mainnet", ⟨0x80, 0x3c⟩), ("testnet", ⟨0x80, 0x6f⟩)], none⟩

/-- `bip38/cryptocurrencies.py:1263-1270` -/
def Reddcoin : Coin := ⟨"Reddcoin", [("mainnet", ⟨0xbd, 0x3d⟩)], none⟩

/-- `bip38/cryptocurrencies.py:1273-1281` -/
def Ripple : Coin := ⟨"Ripple", [("mainnet", ⟨0x80, 0x0⟩)], (some "rpshnaf39wBUDNEGHJKLM4PQRST7VWXYZ2bcdeCg65jkm8oFqi1tuvAxyz".toList)⟩

/-- `bip38/cryptocurrencies.py:1284-1291` -/
def Ritocoin : Coin := ⟨"Ritocoin", [("mainnet", ⟨0x8b, 0x19⟩)], none⟩

/-- `bip38/cryptocurrencies.py:1294-1305` -/
def RSK : Coin := ⟨"RSK", [("mainnet", ⟨0x80, 0x0⟩), ("testnet", ⟨0xef, 0x6f⟩)], none⟩

/-- `bip38/cryptocurrencies.py:1308-1315` -/
def Rubycoin : Coin := ⟨"Rubycoin", [("mainnet", ⟨0xbc, 0x3c⟩)], none⟩

/-- `bip38/cryptocurrencies.py:1318-1325` -/
def Safecoin : Coin := ⟨"Safecoin", [("mainnet", ⟨0xbd, 0x3d⟩)], none⟩

/-- `bip38/cryptocurrencies.py:1328-1335` -/
def Saluscoin : Coin := ⟨"Saluscoin", [("mainnet", ⟨0xbf, 0x3f⟩)], none⟩

/-- `bip38/cryptocurrencies.py:1338-1345` -/
def Scribe : Coin := ⟨"Scribe", [("mainnet", ⟨0x6e, 0x3c⟩)], none⟩

/-- `bip38/cryptocurrencies.py:1348-1359` -/
def ShadowCash : Coin := ⟨"ShadowCash", [("mainnet", ⟨0xbf, 0x3f⟩), ("testnet", ⟨0xff, 0x7f⟩)], none⟩

/-- `bip38/cryptocurrencies.py:1362-1373` -/
def Slimcoin : Coin := ⟨"Slimcoin", [("mainnet", ⟨0x46, 0x3f⟩), ("testnet", ⟨0x57, 0x6f⟩)], none⟩

/-- `bip38/cryptocurrencies.py:1376-1383` -/
def Smileycoin : Coin := ⟨"Smileycoin", [("mainnet", ⟨0x5, 0x19⟩)], none⟩

/-- `bip38/cryptocurrencies.py:1386-1393` -/
def Solarcoin : Coin := ⟨"Solarcoin", [("mainnet", ⟨0x92, 0x12⟩)], none⟩

/-- `bip38/cryptocurrencies.py:1396-1407` -/
def Stash : Coin := ⟨"Stash", [("mainnet", ⟨0xcc, 0x4c⟩), ("testnet", ⟨0xef, 0x8c⟩)], none⟩

/-- `bip38/cryptocurrencies.py:1410-1421` -/
def Stratis : Coin := ⟨"Stratis", [("mainnet", ⟨0xbf, 0x3f⟩), ("testnet", ⟨0xbf, 0x41⟩)], none⟩

/-- `bip38/cryptocurrencies.py:1424-1435` -/
def Sugarchain : Coin := ⟨"Sugarchain", [("mainnet", ⟨0x80, 0x3f⟩), ("testnet", ⟨0xef, 0x42⟩)], none⟩

/-- `bip38/cryptocurrencies.py:1438-1445` -/
def Syscoin : Coin := ⟨"Syscoin", [("mainnet", ⟨0x80, 0x3f⟩)], none⟩

/-- `bip38/cryptocurrencies.py:1448-1455` -/
def ThoughtAI : Coin := ⟨"ThoughtAI", [("mainnet", ⟨0x7b, 0x7⟩)], none⟩

/-- `bip38/cryptocurrencies.py:1458-1465` -/
def TOACoin : Coin := ⟨"TOACoin", [("mainnet", ⟨0xc1, 0x41⟩)], none⟩

/-- `bip38/cryptocurrencies.py:1468-1479` -/
def TWINS : Coin := ⟨"TWINS", [("mainnet", ⟨0x42, 0x49⟩), ("testnet", ⟨0xed, 0x4c⟩)], none⟩

/-- `bip38/cryptocurrencies.py:1482-1489` -/
def UltimateSecureCash : Coin := ⟨"UltimateSecureCash", [("mainnet", ⟨0xbf, 0x44⟩)], none⟩

/-- `bip38/cryptocurrencies.py:1492-1499` -/
def Unobtanium : Coin := ⟨"Unobtanium", [("mainnet", ⟨0xe0, 0x82⟩)], none⟩

/-- `bip38/cryptocurrencies.py:1502-1509` -/
def Vcash : Coin := ⟨"Vcash", [("mainnet", ⟨0xc7, 0x47⟩)], none⟩

/-- `bip38/cryptocurrencies.py:1512-1519` -/
def Verge : Coin := ⟨"Verge", [("mainnet", ⟨0x9e, 0x1e⟩)], none⟩

/-- `bip38/cryptocurrencies.py:1522-1529` -/
def Vertcoin : Coin := ⟨"Vertcoin", [("mainnet", ⟨0x80, 0x47⟩)], none⟩

/-- `bip38/cryptocurrencies.py:1532-1543` -/
def Viacoin : Coin := ⟨"Viacoin", [("mainnet", ⟨0xc7, 0x47⟩), ("testnet", ⟨0xff, 0x7f⟩)], none⟩

/-- `bip38/cryptocurrencies.py:1546-1553` -/
def Vivo : Coin := ⟨"Vivo", [("mainnet", ⟨0xc6, 0x46⟩)], none⟩

/-- `bip38/cryptocurrencies.py:1556-1563` -/
def Voxels : Coin := ⟨"Voxels", [("mainnet", ⟨0xc6, 0x46⟩)], none⟩

/-- `bip38/cryptocurrencies.py:1566-1573` -/
def VirtualCash : Coin := ⟨"VirtualCash", [("mainnet", ⟨0xc7, 0x47⟩)], none⟩

/-- `bip38/cryptocurrencies.py:1576-1583` -/
def Wagerr : Coin := ⟨"Wagerr", [("mainnet", ⟨0xc7, 0x49⟩)], none⟩

/-- `bip38/cryptocurrencies.py:1586-1593` -/
def Whitecoin : Coin := ⟨"Whitecoin", [("mainnet", ⟨0xc9, 0x49⟩)], none⟩

/-- `bip38/cryptocurrencies.py:1596-1603` -/
def Wincoin : Coin := ⟨"Wincoin", [("mainnet", ⟨0xc9, 0x49⟩)], none⟩

/-- `bip38/cryptocurrencies.py:1606-1613` -/
def XUEZ : Coin := ⟨"XUEZ", [("mainnet", ⟨0xd4, 0x4b⟩)], none⟩

/-- `bip38/cryptocurrencies.py:1616-1623` -/
def Ycash : Coin := ⟨"Ycash", [("mainnet", ⟨0x80, 0x1c28⟩)], none⟩

/-- `bip38/cryptocurrencies.py:1626-1637` -/
def Zcash : Coin := ⟨"Zcash", [("mainnet", ⟨0x80, 0x1cb8⟩), ("testnet", ⟨0xef, 0x1d25⟩)], none⟩

/-- `bip38/cryptocurrencies.py:1640-1647` -/
def ZClassic : Coin := ⟨"ZClassic", [("mainnet", ⟨0x80, 0x1cb8⟩)], none⟩

/-- `bip38/cryptocurrencies.py:1650-1657` -/
def Zetacoin : Coin := ⟨"Zetacoin", [("mainnet", ⟨0xe0, 0x50⟩)], none⟩

/-- `bip38/cryptocurrencies.py:1660-1667` -/
def ZooBC : Coin := ⟨"ZooBC", [("mainnet", ⟨0x80, 0x0⟩)], none⟩

/-- All 155 cryptocurrency classes of the module. -/
def all : List Coin := [
  Adcoin, Anon, Argoneum, Artax, Aryacoin, Asiacoin, Auroracoin, Avian,
  Axe, Bata, BeetleCoin, BelaCoin, BitCloud, Bitcoin, BitcoinAtom, BitcoinGold,
  BitcoinGreen, BitcoinPlus, BitcoinPrivate, BitcoinSV, BitcoinZ, Bitcore, BitSend, Blackcoin,
  Blocknode, BlockStamp, Bolivarcoin, BritCoin, CanadaeCoin, Cannacoin, Clams, ClubCoin,
  Compcoin, CPUChain, CranePay, Crave, Dash, DeepOnion, Defcoin, Denarius,
  Diamond, DigiByte, Digitalcoin, Divi, Dogecoin, Ecoin, EDRCoin, eGulden,
  Einsteinium, Elastos, Energi, EuropeCoin, Evrmore, ExclusiveCoin, Feathercoin, Firo,
  Firstcoin, FIX, Flashcoin, Flux, Foxdcoin, FujiCoin, GameCredits, GCRCoin,
  GoByte, Gridcoin, GroestlCoin, Gulden, Helleniccoin, Hempcoin, Horizen, Hush,
  InsaneCoin, InternetOfPeople, IXCoin, Jumbucks, Kobocoin, Komodo, Landcoin, LBRYCredits,
  Linx, Litecoin, LitecoinCash, LitecoinZ, Lkrcoin, Lynx, Mazacoin, Megacoin,
  Minexcoin, Monacoin, Monk, Myriadcoin, Namecoin, Navcoin, Neblio, Neoscoin,
  Neurocoin, NewYorkCoin, NIX, Novacoin, NuBits, NuShares, OKCash, Omni,
  Onix, Particl, Peercoin, Pesobit, Phore, Pinkcoin, Pivx, PoSWCoin,
  Potcoin, ProjectCoin, Putincoin, Qtum, Rapids, Ravencoin, Reddcoin, Ripple,
  Ritocoin, RSK, Rubycoin, Safecoin, Saluscoin, Scribe, ShadowCash, Slimcoin,
  Smileycoin, Solarcoin, Stash, Stratis, Sugarchain, Syscoin, ThoughtAI, TOACoin,
  TWINS, UltimateSecureCash, Unobtanium, Vcash, Verge, Vertcoin, Viacoin, Vivo,
  Voxels, VirtualCash, Wagerr, Whitecoin, Wincoin, XUEZ, Ycash, Zcash,
  ZClassic, Zetacoin, ZooBC]

end Coins
end Bip38
