{"edit": "utils.py takes Error from exceptions, which takes bytes_to_string from utils", "file": "utils.py", "old": "from typing import (", "new": "from .exceptions import Error\nfrom typing import (", "claim": "none: no cycle yet (control)", "result": "killed", "failed": ["package_sound"], "i": 0}
{"edit": "crypto.py takes BIP38 from bip38", "file": "crypto.py", "old": "from .utils import get_bytes", "new": "from .utils import get_bytes\nfrom .bip38 import BIP38", "claim": "import bip38 works", "result": "killed", "failed": ["package_sound"], "i": 1}
{"edit": "const.py takes the package version from the package", "file": "const.py", "old": "from typing import (", "new": "from . import __version__\nfrom typing import (", "claim": "import works", "result": "killed", "failed": ["package_sound"], "i": 2}
{"edit": "exceptions.py takes bytes_to_string from wif", "file": "exceptions.py", "old": "from typing import (", "new": "from .wif import get_wif_type\nfrom typing import (", "claim": "no circular import", "result": "killed", "failed": ["package_sound"], "i": 3}
{"edit": "wif.py does not import get_checksum", "file": "wif.py", "old": "from .crypto import get_checksum\n", "new": "", "claim": "no undefined global names", "result": "killed", "failed": ["C96_links", "C96_reads"], "i": 4}
{"edit": "wif.py takes get_checksum from utils", "file": "wif.py", "old": "from .crypto import get_checksum\n", "new": "from .utils import get_checksum\n", "claim": "import works", "result": "killed", "failed": ["package_sound"], "i": 5}
{"edit": "bip38.py imports sha256 as double_sha256", "file": "bip38.py", "old": "    double_sha256, get_checksum", "new": "    sha256 as double_sha256, get_checksum", "claim": "names stand for what the translation says", "result": "killed", "failed": ["C96_links"], "i": 6}
{"edit": "bip38.py defines its own Secp256k1Error", "file": "bip38.py", "old": "class BIP38:", "new": "class Secp256k1Error(Error):\n    pass\n\n\nclass BIP38:", "claim": "one class per name", "result": "killed", "failed": ["package_sound"], "i": 7}
{"edit": "point.py defines its own Secp256k1Error", "file": "secp256k1/point.py", "old": "from ..exceptions import Secp256k1Error\n", "new": "class Secp256k1Error(Exception):\n    pass\n", "claim": "the except clause catches what is raised", "result": "killed", "failed": ["C96_except", "C96_links"], "i": 8}
{"edit": "public_key.py forgets to import ellipticcurve", "file": "secp256k1/public_key.py", "old": "curves, ellipticcurve, keys", "new": "curves, keys", "claim": "no undefined global names", "result": "killed", "failed": ["C96_links", "C96_reads"], "i": 9}
{"edit": "__init__ exports BIP38 from wif", "file": "__init__.py", "old": "from .bip38 import BIP38", "new": "from .wif import encode_wif as BIP38", "claim": "public names", "result": "killed", "failed": [":", "C96_all_loaded", "C96_public"], "i": 10}
{"edit": "__init__ does not import BIP38", "file": "__init__.py", "old": "from .bip38 import BIP38\n", "new": "", "claim": "importing loads everything", "result": "killed", "failed": [":", "C96_all_loaded", "C96_public"], "i": 11}
{"edit": "libs/base58.py uses an undefined default alphabet", "file": "libs/base58.py", "old": "def encode(data, alphabet=__base58_alphabet)", "new": "def encode(data, alphabet=__alphabet)", "claim": "import works", "result": "killed", "failed": ["package_sound"], "i": 12}
{"edit": "cryptocurrencies.py lists a class before its base", "file": "cryptocurrencies.py", "old": "class Adcoin(ICryptocurrency)", "new": "class Adcoin(Zcash)", "claim": "import works", "result": "killed", "failed": ["C97_attributes", "C97_subclass", "package_sound"], "i": 13}
{"edit": "p2pkh_address.py imports with one dot too many", "file": "p2pkh_address.py", "old": "from .crypto import hash160", "new": "from ..crypto import hash160", "claim": "import works", "result": "killed", "failed": ["C96_links"], "i": 14}
{"edit": "private_key.py imports PublicKey from the package that imports it", "file": "secp256k1/private_key.py", "old": "from .public_key import PublicKey", "new": "from . import PublicKey", "claim": "import in every order", "result": "killed", "failed": ["package_sound"], "i": 15}
{"edit": "point.py annotation Point without quotes", "file": "secp256k1/point.py", "old": "-> \"Point\"", "new": "-> Point", "claim": "import works", "result": "killed", "failed": ["package_sound"], "i": 16}
{"edit": "Adcoin's wif prefix", "file": "cryptocurrencies.py", "old": "\"wif_prefix\": 0xb0", "new": "\"wif_prefix\": 0xb1", "claim": "table", "result": "killed", "failed": ["C97_attributes"], "i": 17}
{"edit": "Ripple without alphabet", "file": "cryptocurrencies.py", "old": "    ALPHABET = \"rpshnaf39wBUDNEGHJKLM4PQRST7VWXYZ2bcdeCg65jkm8oFqi1tuvAxyz\"\n", "new": "", "claim": "table", "result": "killed", "failed": ["C97_attributes"], "i": 18}
{"edit": "ICryptocurrency has Bitcoin's alphabet", "file": "cryptocurrencies.py", "old": "    ALPHABET: Optional[str] = None", "new": "    ALPHABET: Optional[str] = \"123456789ABCDEFGHJKLMNPQRSTUVWXYZabcdefghijkmnopqrstuvwxyz\"", "claim": "table", "result": "killed", "failed": ["C97_attributes", "C97_base"], "i": 19}
{"edit": "a class not derived from ICryptocurrency", "file": "cryptocurrencies.py", "old": "class Anon(ICryptocurrency)", "new": "class Anon", "claim": "subclass", "result": "killed", "failed": ["C97_attributes", "C97_subclass"], "i": 20}
{"edit": "a class defined twice", "file": "cryptocurrencies.py", "old": "class Anon(ICryptocurrency)", "new": "class Adcoin(ICryptocurrency)", "claim": "table", "result": "killed", "failed": ["C97_attributes", "C97_classes", "C97_subclass", "package_sound"], "i": 21}
