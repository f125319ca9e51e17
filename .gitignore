tools/__pycache__/
__pycache__/
