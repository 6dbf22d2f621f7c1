/-! # Well-known first characters

For every network of every cryptocurrency: the characters an address, an uncompressed WIF and a compressed WIF may start with, and
their lengths (0: the address has no fixed length, which is the case of the prefix byte 0 alone). These are the characters by which
people recognise such texts, as in "Litecoin addresses start with L, Dogecoin addresses with D, Dash addresses with X". -/
namespace Bip38.Spec

structure Starts where
  coin : String
  network : String
  address : String
  addressLength : Nat
  wif : String
  wifLength : Nat
  compressed : String
  compressedLength : Nat
  deriving DecidableEq

def starts : List Starts := [
  ⟨"Adcoin", "mainnet", "A", 34, "6", 51, "T", 52⟩,
  ⟨"Anon", "mainnet", "A", 35, "5", 51, "KL", 52⟩,
  ⟨"Argoneum", "mainnet", "M", 34, "7", 51, "V", 52⟩,
  ⟨"Artax", "mainnet", "A", 34, "6", 51, "P", 52⟩,
  ⟨"Aryacoin", "mainnet", "A", 34, "6", 51, "P", 52⟩,
  ⟨"Asiacoin", "mainnet", "A", 34, "6", 51, "P", 52⟩,
  ⟨"Auroracoin", "mainnet", "A", 34, "6", 51, "P", 52⟩,
  ⟨"Avian", "mainnet", "R", 34, "5", 51, "KL", 52⟩,
  ⟨"Axe", "mainnet", "P", 34, "7", 51, "X", 52⟩,
  ⟨"Bata", "mainnet", "B", 34, "6", 51, "R", 52⟩,
  ⟨"BeetleCoin", "mainnet", "B", 34, "6", 51, "P", 52⟩,
  ⟨"BelaCoin", "mainnet", "B", 34, "6", 51, "P", 52⟩,
  ⟨"BitCloud", "mainnet", "B", 34, "6", 51, "P", 52⟩,
  ⟨"Bitcoin", "mainnet", "1", 0, "5", 51, "KL", 52⟩,
  ⟨"Bitcoin", "testnet", "mn", 34, "9", 51, "c", 52⟩,
  ⟨"Bitcoin", "regtest", "mn", 34, "9", 51, "c", 52⟩,
  ⟨"BitcoinAtom", "mainnet", "A", 34, "5", 51, "KL", 52⟩,
  ⟨"BitcoinGold", "mainnet", "G", 34, "5", 51, "KL", 52⟩,
  ⟨"BitcoinGreen", "mainnet", "G", 34, "2", 51, "7", 52⟩,
  ⟨"BitcoinPlus", "mainnet", "B", 34, "6", 51, "P", 52⟩,
  ⟨"BitcoinPrivate", "mainnet", "b", 35, "5", 51, "KL", 52⟩,
  ⟨"BitcoinPrivate", "testnet", "n", 35, "9", 51, "c", 52⟩,
  ⟨"BitcoinSV", "mainnet", "1", 0, "5", 51, "KL", 52⟩,
  ⟨"BitcoinZ", "mainnet", "t", 35, "5", 51, "KL", 52⟩,
  ⟨"Bitcore", "mainnet", "2", 34, "5", 51, "KL", 52⟩,
  ⟨"BitSend", "mainnet", "i", 34, "7", 51, "X", 52⟩,
  ⟨"Blackcoin", "mainnet", "B", 34, "6", 51, "P", 52⟩,
  ⟨"Blocknode", "mainnet", "B", 34, "3", 51, "C", 52⟩,
  ⟨"Blocknode", "testnet", "b", 34, "5", 51, "M", 52⟩,
  ⟨"BlockStamp", "mainnet", "1", 0, "5", 51, "KL", 52⟩,
  ⟨"Bolivarcoin", "mainnet", "b", 34, "8", 51, "Y", 52⟩,
  ⟨"BritCoin", "mainnet", "B", 34, "6", 51, "P", 52⟩,
  ⟨"CanadaeCoin", "mainnet", "C", 34, "6", 51, "Q", 52⟩,
  ⟨"Cannacoin", "mainnet", "C", 34, "6", 51, "Q", 52⟩,
  ⟨"Clams", "mainnet", "x", 34, "5", 51, "L", 52⟩,
  ⟨"ClubCoin", "mainnet", "C", 34, "6", 51, "P", 52⟩,
  ⟨"Compcoin", "mainnet", "C", 34, "6", 51, "Q", 52⟩,
  ⟨"CPUChain", "mainnet", "C", 34, "5", 51, "KL", 52⟩,
  ⟨"CranePay", "mainnet", "C", 34, "5", 51, "K", 52⟩,
  ⟨"Crave", "mainnet", "V", 34, "6", 51, "P", 52⟩,
  ⟨"Dash", "mainnet", "X", 34, "7", 51, "X", 52⟩,
  ⟨"Dash", "testnet", "y", 34, "9", 51, "c", 52⟩,
  ⟨"DeepOnion", "mainnet", "D", 34, "6", 51, "Q", 52⟩,
  ⟨"Defcoin", "mainnet", "D", 34, "6", 51, "Q", 52⟩,
  ⟨"Denarius", "mainnet", "D", 34, "6", 51, "Q", 52⟩,
  ⟨"Diamond", "mainnet", "d", 34, "8", 51, "Z", 52⟩,
  ⟨"DigiByte", "mainnet", "D", 34, "5", 51, "KL", 52⟩,
  ⟨"Digitalcoin", "mainnet", "D", 34, "6", 51, "Q", 52⟩,
  ⟨"Divi", "mainnet", "D", 34, "8", 51, "Y", 52⟩,
  ⟨"Divi", "testnet", "D", 34, "8", 51, "Y", 52⟩,
  ⟨"Dogecoin", "mainnet", "D", 34, "9", 51, "c", 52⟩,
  ⟨"Dogecoin", "testnet", "n", 34, "9", 51, "c", 52⟩,
  ⟨"Ecoin", "mainnet", "e", 34, "8", 51, "Z", 52⟩,
  ⟨"EDRCoin", "mainnet", "e", 34, "8", 51, "Z", 52⟩,
  ⟨"eGulden", "mainnet", "L", 34, "6", 51, "T", 52⟩,
  ⟨"Einsteinium", "mainnet", "E", 34, "6", 51, "Q", 52⟩,
  ⟨"Elastos", "mainnet", "E", 34, "5", 51, "KL", 52⟩,
  ⟨"Energi", "mainnet", "E", 34, "4", 51, "G", 52⟩,
  ⟨"EuropeCoin", "mainnet", "E", 34, "6", 51, "R", 52⟩,
  ⟨"Evrmore", "mainnet", "E", 34, "5", 51, "KL", 52⟩,
  ⟨"Evrmore", "testnet", "mn", 34, "9", 51, "c", 52⟩,
  ⟨"ExclusiveCoin", "mainnet", "E", 34, "6", 51, "Q", 52⟩,
  ⟨"Feathercoin", "mainnet", "67", 34, "5", 51, "N", 52⟩,
  ⟨"Firo", "mainnet", "Za", 34, "8", 51, "Y", 52⟩,
  ⟨"Firstcoin", "mainnet", "F", 34, "6", 51, "R", 52⟩,
  ⟨"FIX", "mainnet", "F", 34, "3", 51, "9A", 52⟩,
  ⟨"FIX", "testnet", "X", 34, "8", 51, "c", 52⟩,
  ⟨"Flashcoin", "mainnet", "U", 34, "7", 51, "VW", 52⟩,
  ⟨"Flux", "mainnet", "t", 35, "5", 51, "KL", 52⟩,
  ⟨"Foxdcoin", "mainnet", "F", 34, "5", 51, "KL", 52⟩,
  ⟨"Foxdcoin", "testnet", "f", 34, "9", 51, "c", 52⟩,
  ⟨"FujiCoin", "mainnet", "F", 34, "6", 51, "R", 52⟩,
  ⟨"GameCredits", "mainnet", "G", 34, "6", 51, "R", 52⟩,
  ⟨"GCRCoin", "mainnet", "G", 34, "6", 51, "P", 52⟩,
  ⟨"GoByte", "mainnet", "G", 34, "7", 51, "W", 52⟩,
  ⟨"Gridcoin", "mainnet", "RS", 34, "7", 51, "V", 52⟩,
  ⟨"GroestlCoin", "mainnet", "F", 34, "5", 51, "KL", 52⟩,
  ⟨"GroestlCoin", "testnet", "mn", 34, "9", 51, "c", 52⟩,
  ⟨"Gulden", "mainnet", "G", 34, "4", 51, "F", 52⟩,
  ⟨"Helleniccoin", "mainnet", "L", 34, "6", 51, "T", 52⟩,
  ⟨"Hempcoin", "mainnet", "H", 34, "6", 51, "R", 52⟩,
  ⟨"Horizen", "mainnet", "z", 35, "5", 51, "KL", 52⟩,
  ⟨"Hush", "mainnet", "t", 35, "5", 51, "KL", 52⟩,
  ⟨"InsaneCoin", "mainnet", "i", 34, "2", 51, "9", 52⟩,
  ⟨"InternetOfPeople", "mainnet", "p", 34, "2", 51, "8", 52⟩,
  ⟨"IXCoin", "mainnet", "x", 34, "5", 51, "KL", 52⟩,
  ⟨"Jumbucks", "mainnet", "J", 34, "6", 51, "S", 52⟩,
  ⟨"Kobocoin", "mainnet", "F", 34, "6", 51, "R", 52⟩,
  ⟨"Komodo", "mainnet", "R", 34, "7", 51, "U", 52⟩,
  ⟨"Landcoin", "mainnet", "L", 34, "6", 51, "T", 52⟩,
  ⟨"LBRYCredits", "mainnet", "b", 34, "wxy", 50, "5", 52⟩,
  ⟨"Linx", "mainnet", "X", 34, "7", 51, "X", 52⟩,
  ⟨"Litecoin", "mainnet", "L", 34, "6", 51, "T", 52⟩,
  ⟨"Litecoin", "testnet", "mn", 34, "9", 51, "c", 52⟩,
  ⟨"LitecoinCash", "mainnet", "C", 34, "6", 51, "T", 52⟩,
  ⟨"LitecoinZ", "mainnet", "L", 35, "5", 51, "KL", 52⟩,
  ⟨"Lkrcoin", "mainnet", "L", 34, "6", 51, "T", 52⟩,
  ⟨"Lynx", "mainnet", "K", 34, "6", 51, "S", 52⟩,
  ⟨"Mazacoin", "mainnet", "M", 34, "8", 51, "a", 52⟩,
  ⟨"Megacoin", "mainnet", "M", 34, "6", 51, "T", 52⟩,
  ⟨"Minexcoin", "mainnet", "X", 34, "5", 51, "KL", 52⟩,
  ⟨"Monacoin", "mainnet", "M", 34, "6", 51, "T", 52⟩,
  ⟨"Monk", "mainnet", "M", 34, "2", 51, "9", 52⟩,
  ⟨"Myriadcoin", "mainnet", "M", 34, "6", 51, "T", 52⟩,
  ⟨"Namecoin", "mainnet", "MN", 34, "5", 51, "KL", 52⟩,
  ⟨"Navcoin", "mainnet", "N", 34, "6", 51, "P", 52⟩,
  ⟨"Neblio", "mainnet", "N", 34, "7", 51, "T", 52⟩,
  ⟨"Neoscoin", "mainnet", "N", 34, "6", 51, "T", 52⟩,
  ⟨"Neurocoin", "mainnet", "N", 34, "7", 51, "T", 52⟩,
  ⟨"NewYorkCoin", "mainnet", "R", 34, "7", 51, "U", 52⟩,
  ⟨"NIX", "mainnet", "G", 34, "5", 51, "KL", 52⟩,
  ⟨"Novacoin", "mainnet", "4", 34, "5", 51, "M", 52⟩,
  ⟨"NuBits", "mainnet", "B", 34, "6", 51, "P", 52⟩,
  ⟨"NuShares", "mainnet", "S", 34, "56", 51, "P", 52⟩,
  ⟨"OKCash", "mainnet", "P", 34, "678", 50, "STUVWXYZab", 51⟩,
  ⟨"Omni", "mainnet", "1", 0, "5", 51, "KL", 52⟩,
  ⟨"Omni", "testnet", "mn", 34, "9", 51, "c", 52⟩,
  ⟨"Onix", "mainnet", "X", 34, "7", 51, "X", 52⟩,
  ⟨"Particl", "mainnet", "P", 34, "4", 51, "GH", 52⟩,
  ⟨"Peercoin", "mainnet", "P", 34, "7", 51, "U", 52⟩,
  ⟨"Pesobit", "mainnet", "P", 34, "7", 51, "U", 52⟩,
  ⟨"Phore", "mainnet", "P", 34, "8", 51, "Y", 52⟩,
  ⟨"Pinkcoin", "mainnet", "2", 34, "5", 51, "L", 52⟩,
  ⟨"Pivx", "mainnet", "D", 34, "8", 51, "Y", 52⟩,
  ⟨"Pivx", "testnet", "xy", 34, "9", 51, "c", 52⟩,
  ⟨"PoSWCoin", "mainnet", "P", 34, "7", 51, "U", 52⟩,
  ⟨"Potcoin", "mainnet", "P", 34, "7", 51, "U", 52⟩,
  ⟨"ProjectCoin", "mainnet", "P", 34, "4", 51, "J", 52⟩,
  ⟨"Putincoin", "mainnet", "P", 34, "7", 51, "U", 52⟩,
  ⟨"Qtum", "mainnet", "Q", 34, "5", 51, "KL", 52⟩,
  ⟨"Qtum", "testnet", "q", 34, "9", 51, "c", 52⟩,
  ⟨"Rapids", "mainnet", "R", 34, "2", 51, "7", 52⟩,
  ⟨"Ravencoin", "mainnet", "R", 34, "5", 51, "KL", 52⟩,
  ⟨"Ravencoin", "testnet", "mn", 34, "5", 51, "KL", 52⟩,
  ⟨"Reddcoin", "mainnet", "R", 34, "7", 51, "UV", 52⟩,
  ⟨"Ripple", "mainnet", "1", 0, "5", 51, "KL", 52⟩,
  ⟨"Ritocoin", "mainnet", "B", 34, "5", 51, "M", 52⟩,
  ⟨"RSK", "mainnet", "1", 0, "5", 51, "KL", 52⟩,
  ⟨"RSK", "testnet", "mn", 34, "9", 51, "c", 52⟩,
  ⟨"Rubycoin", "mainnet", "R", 34, "7", 51, "U", 52⟩,
  ⟨"Safecoin", "mainnet", "R", 34, "7", 51, "UV", 52⟩,
  ⟨"Saluscoin", "mainnet", "S", 34, "7", 51, "V", 52⟩,
  ⟨"Scribe", "mainnet", "R", 34, "4", 51, "H", 52⟩,
  ⟨"ShadowCash", "mainnet", "S", 34, "7", 51, "V", 52⟩,
  ⟨"ShadowCash", "testnet", "t", 34, "9", 51, "e", 52⟩,
  ⟨"Slimcoin", "mainnet", "S", 34, "3", 51, "B", 52⟩,
  ⟨"Slimcoin", "testnet", "mn", 34, "3", 51, "DE", 52⟩,
  ⟨"Smileycoin", "mainnet", "B", 34, "ABC", 50, "jkmnopqrst", 51⟩,
  ⟨"Solarcoin", "mainnet", "8", 34, "5", 51, "N", 52⟩,
  ⟨"Stash", "mainnet", "X", 34, "7", 51, "X", 52⟩,
  ⟨"Stash", "testnet", "y", 34, "9", 51, "c", 52⟩,
  ⟨"Stratis", "mainnet", "S", 34, "7", 51, "V", 52⟩,
  ⟨"Stratis", "testnet", "T", 34, "7", 51, "V", 52⟩,
  ⟨"Sugarchain", "mainnet", "S", 34, "5", 51, "KL", 52⟩,
  ⟨"Sugarchain", "testnet", "T", 34, "9", 51, "c", 52⟩,
  ⟨"Syscoin", "mainnet", "S", 34, "5", 51, "KL", 52⟩,
  ⟨"ThoughtAI", "mainnet", "34", 34, "5", 51, "K", 52⟩,
  ⟨"TOACoin", "mainnet", "T", 34, "7", 51, "V", 52⟩,
  ⟨"TWINS", "mainnet", "W", 34, "3", 51, "A", 52⟩,
  ⟨"TWINS", "testnet", "X", 34, "8", 51, "c", 52⟩,
  ⟨"UltimateSecureCash", "mainnet", "U", 34, "7", 51, "V", 52⟩,
  ⟨"Unobtanium", "mainnet", "u", 34, "8", 51, "a", 52⟩,
  ⟨"Vcash", "mainnet", "V", 34, "7", 51, "W", 52⟩,
  ⟨"Verge", "mainnet", "D", 34, "6", 51, "Q", 52⟩,
  ⟨"Vertcoin", "mainnet", "V", 34, "5", 51, "KL", 52⟩,
  ⟨"Viacoin", "mainnet", "V", 34, "7", 51, "W", 52⟩,
  ⟨"Viacoin", "testnet", "t", 34, "9", 51, "e", 52⟩,
  ⟨"Vivo", "mainnet", "V", 34, "7", 51, "W", 52⟩,
  ⟨"Voxels", "mainnet", "V", 34, "7", 51, "W", 52⟩,
  ⟨"VirtualCash", "mainnet", "V", 34, "7", 51, "W", 52⟩,
  ⟨"Wagerr", "mainnet", "W", 34, "7", 51, "W", 52⟩,
  ⟨"Whitecoin", "mainnet", "W", 34, "7", 51, "W", 52⟩,
  ⟨"Wincoin", "mainnet", "W", 34, "7", 51, "W", 52⟩,
  ⟨"XUEZ", "mainnet", "X", 34, "8", 51, "Y", 52⟩,
  ⟨"Ycash", "mainnet", "s", 35, "5", 51, "KL", 52⟩,
  ⟨"Zcash", "mainnet", "t", 35, "5", 51, "KL", 52⟩,
  ⟨"Zcash", "testnet", "t", 35, "9", 51, "c", 52⟩,
  ⟨"ZClassic", "mainnet", "t", 35, "5", 51, "KL", 52⟩,
  ⟨"Zetacoin", "mainnet", "Z", 34, "8", 51, "a", 52⟩,
  ⟨"ZooBC", "mainnet", "1", 0, "5", 51, "KL", 52⟩]

end Bip38.Spec
