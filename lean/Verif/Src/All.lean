import Verif.Src.Bip38
