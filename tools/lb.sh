#!/bin/bash
# build one module and show errors only
cd /verif/lean && lake build "$1" 2>&1 | grep -A${2:-18} "^error" | head -${3:-70}
